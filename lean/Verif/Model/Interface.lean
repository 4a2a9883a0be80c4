import Verif.Basic.Py
import Mathlib.Algebra.Field.Basic
import Mathlib.Order.Defs.LinearOrder

/-!
# `despasito/equations_of_state/interface.py`: bounds, updates and guesses

`EosTemplate.guess_parameters` (140-198), `check_bounds` (200-288), `update_parameter` (290-348)
and the overrides in `saft/saft.py` (594-651).  The attributes `parameter_types`,
`parameter_bound_extreme`, `bead_library` and `cross_library` are assumed to be set, as every
shipped EOS does in `__init__`; the `is None` checks are dropped.
-/

namespace Verif.Interface
open Verif

/-- `s.split(c)[0]`: the characters before the first separator. Used in interface.py:200-288. -/
def splitHead (c : Char) (s : String) : String := String.ofList (s.toList.takeWhile (· ≠ c))

/-- `p in s` for strings (characters of `p` occur contiguously in `s`). Used in interface.py:316-330. -/
def isSub (p : List Char) : List Char → Bool
  | [] => p.isEmpty
  | c :: s => p.isPrefixOf (c :: s) || isSub p s

/-! ## Bounds -/

section Bounds
variable {K : Type} [LT K] [DecidableRel (α := K) (· < ·)]

/-- interface.py:236-257: lower bound.  `none` is NaN, for which both comparisons are false. -/
def checkLower (mn mx : K) : Option K → Option K
  | none => none
  | some b => if b < mn then some mn else if b > mx then some mn else some b

/-- interface.py:259-280: upper bound. -/
def checkUpper (mn mx : K) : Option K → Option K
  | none => none
  | some b => if b > mx then some mx else if b < mn then some mx else some b

/-- interface.py:200-288.  The argument `parameter` is overwritten in line 230 and not used. -/
def checkBounds (extreme : PyDict String (K × K)) (name : String) (lo hi : Option K) :
    Except PyErr (Option K × Option K) :=
  match extreme.get? (splitHead '_' name) with
  | some (mn, mx) => .ok (checkLower mn mx lo, checkUpper mn mx hi)
  | none => .error .valueError

/-- saft.py:594-622: association site names after the first `-` are removed first. -/
def saftCheckBounds (extreme : PyDict String (K × K)) (name : String) (lo hi : Option K) :
    Except PyErr (Option K × Option K) :=
  checkBounds extreme (splitHead '-' name) lo hi

end Bounds

/-! ## Libraries -/

/-- The attributes of an EOS object that updates and guesses use.  `β` are group names.
Used in interface.py:316-330. -/
structure Eos (β V : Type) where
  beads : List β
  types : List String
  lib : PyDict β (PyDict String V)
  cross : PyDict β (PyDict β (PyDict String V))

variable {β V : Type} [DecidableEq β]

/-- `cross[a][b]` when both keys are present. Used in interface.py:339-348. -/
def entry? (cross : PyDict β (PyDict β (PyDict String V))) (a b : β) : Option (PyDict String V) :=
  (cross.get? a).bind (·.get? b)

/-- `cross[a][b][p]` when all keys are present. Used for interface.py:332-348. -/
def crossGet? (cross : PyDict β (PyDict β (PyDict String V))) (a b : β) (p : String) : Option V :=
  (entry? cross a b).bind (·.get? p)

/-- interface.py:332-337: the self-interaction branch. -/
def setSelf (lib : PyDict β (PyDict String V)) (b : β) (p : String) (v : V) :
    PyDict β (PyDict String V) :=
  match lib.get? b with
  | some d => lib.set b (d.set p v)
  | none => lib.set b (PyDict.empty.set p v)

/-- interface.py:339-348: the cross-interaction branch. -/
def setCross (cross : PyDict β (PyDict β (PyDict String V))) (b0 b1 : β) (p : String) (v : V) :
    PyDict β (PyDict β (PyDict String V)) :=
  match entry? cross b1 b0 with
  | some d =>
    -- `cross[b1]` exists because the entry does
    cross.set b1 (((cross.get? b1).getD PyDict.empty).set b0 (d.set p v))
  | none =>
    match cross.get? b0 with
    | some row =>
      match row.get? b1 with
      | some d => cross.set b0 (row.set b1 (d.set p v))
      | none => cross.set b0 (row.set b1 (PyDict.empty.set p v))
    | none => cross.set b0 (PyDict.empty.set b1 (PyDict.empty.set p v))

/-- interface.py:316-330: which calls are refused. -/
def accepts (e : Eos β V) (name : String) (names : List β) : Bool :=
  !(names.length > 2) && names.all (· ∈ e.beads) && e.types.any (fun x => isSub x.toList name.toList)

/-- interface.py:290-348.  An empty list of names changes nothing. -/
def updateParameter (e : Eos β V) (name : String) (names : List β) (v : V) :
    Except PyErr (Eos β V) :=
  if accepts e name names then
    match names with
    | [b] => .ok { e with lib := setSelf e.lib b name v }
    | [b0, b1] => .ok { e with cross := setCross e.cross b0 b1 name v }
    | _ => .ok e
  else .error .valueError

/-- saft.py:644-651: with site names there must be exactly two of them. -/
def saftUpdateParameter (e : Eos β V) (name : String) (names : List β) (v : V) :
    Except PyErr (Eos β V) :=
  let n := name.toList.count '-'
  if n > 0 && n ≠ 2 then .error .valueError else updateParameter e name names v

/-- interface.py:180-192: the value found in the libraries, if any. -/
def lookupGuess (e : Eos β V) (name : String) : List β → Option V
  | [b] => (e.lib.get? b).bind (·.get? name)
  | [b0, b1] =>
    match entry? e.cross b1 b0 with
    | some d => d.get? name
    | none =>
      match entry? e.cross b0 b1 with
      | some d => d.get? name
      | none => none
  | _ => none

/-- interface.py:140-198.  `junk` is what `np.empty(2)` in line 195 happens to contain: it is
uninitialised memory, so any pair of numbers or NaN.  The result `none` is NaN.  With an empty list
of names, `bead_names[0]` in line 195 is an `IndexError`. -/
def guessParameters [Field V] [LinearOrder V] (e : Eos β V) (extreme : PyDict String (V × V))
    (junk : Option V × Option V) (name : String) (names : List β) : Except PyErr (Option V) :=
  if names.length > 2 then .error .valueError
  else if names.all (· ∈ e.beads) then
    match lookupGuess e name names with
    | some v => .ok (some v)
    | none =>
      if names.isEmpty then .error .indexError
      else
        match checkBounds extreme name junk.1 junk.2 with
        | .error err => .error err
        | .ok (some lo, some hi) => .ok (some ((hi - lo) / 2 + lo))
        | .ok _ => .ok none
  else .error .valueError

/-! ## The tables of the shipped equations of state (exact decimal values) -/

/-- cubic/peng_robinson.py:79-86 -/
def prExtreme : PyDict String (ℚ × ℚ) :=
  ⟨[("ai", (0, 50)), ("bi", (0, 1/1000)), ("kij", (-1, 1)), ("omega", (0, 1)), ("Tc", (0, 1000)),
    ("Pc", (1, 100000000))]⟩

/-- saft.py:206-211 updated by gamma_mie.py:202-208 -/
def mieExtreme : PyDict String (ℚ × ℚ) :=
  ⟨[("epsilonHB", (100, 5000)), ("K", (1/100000, 10000)), ("rc", (1/10, 10)), ("rd", (1/10, 10)),
    ("epsilon", (100, 1000)), ("sigma", (1/10, 1)), ("lambdar", (6, 100)), ("lambdaa", (3, 100)),
    ("Sk", (1/10, 1))]⟩

/-- saft.py:206-211 updated by gamma_sw.py:162-167 -/
def swExtreme : PyDict String (ℚ × ℚ) :=
  ⟨[("epsilonHB", (100, 5000)), ("K", (1/100000, 10000)), ("rc", (1/10, 10)), ("rd", (1/10, 10)),
    ("epsilon", (10, 1000)), ("lambda", (1, 10)), ("sigma", (1/10, 10)), ("Sk", (1/10, 1))]⟩

end Verif.Interface
