import Verif.Model.Dispatch
import Verif.Model.EosToolbox
import Verif.Model.AssocXika

/-!
# Construction of an equation of state: `equations_of_state/__init__.py`, `interface.py`, the constructors of
`cubic/peng_robinson.py`, `saft/saft.py`, `saft/gamma_mie.py` and `saft/gamma_sw.py`, and the choice of the compiled
functions in `saft/gamma_mie.py`

What the constructors compute from the libraries once all inputs are there (cross interactions, averages,
association matrices) enters as a parameter; it is modelled in other files.
-/

namespace Verif.Construct
open Verif Verif.Dispatch Verif.EosToolbox Verif.Assoc

/-- Libraries of groups. Used in interface.py:59-75. -/
abbrev Lib (β K : Type) := PyDict β (PyDict String K)

/-- The keyword arguments; `others` are the names of all those not listed. Used in interface.py:59-75. -/
structure Kwargs (β K : Type) where
  beads : Option (List β)
  library : Option (Lib β K)
  composition : Option (List (List K))
  others : List String

variable {β K : Type} [DecidableEq β]

/-- interface.py:59-75 `EosTemplate.__init__`: two keywords are named arguments without default. -/
def template (k : Kwargs β K) : Except PyErr (List β × Lib β K) :=
  match k.beads, k.library with
  | some b, some l => if b.all (fun a => l.contains a) then .ok (b, l) else .error .valueError
  | _, _ => .error .typeError

/-- The object: its kind, implementation, components and groups. Used in peng_robinson.py:74-123. -/
structure Obj (β : Type) where
  kind : Eos
  method : MethodStat
  components : Nat
  beads : List β
  deriving DecidableEq

/-- peng_robinson.py:100-104 for one group. -/
def cubicComplete (d : PyDict String K) : Bool :=
  (d.contains "Tc" && d.contains "Pc") || (d.contains "ai" && d.contains "bi")

/-- peng_robinson.py:96-104: the look-up of one group; groups that are missing were refused before. -/
def cubicGroup (l : Lib β K) (a : β) : Bool :=
  match l.get? a with
  | some d => cubicComplete d
  | none => false

/-- peng_robinson.py:74-123 -/
def cubic (rest : List β → Lib β K → Except PyErr Unit) (m : MethodStat) (k : Kwargs β K) : Except PyErr (Obj β) :=
  match template k with
  | .error e => .error e
  | .ok (b, l) =>
    if b.all (cubicGroup l) then
      match rest b l with
      | .error e => .error e
      | .ok _ => .ok ⟨.pengRobinson, m, b.length, b⟩
    else .error .valueError

/-- gamma_mie.py:194-201 and gamma_sw.py:155-161: `None` marks a parameter without default. -/
def defaults [One K] : Eos → PyDict String (Option K)
  | .gammaMie => ⟨[("epsilon", none), ("lambdar", none), ("lambdaa", none), ("sigma", none), ("Sk", some 1), ("Vks", some 1)]⟩
  | .gammaSw => ⟨[("epsilon", none), ("lambda", none), ("sigma", none), ("Sk", some 1), ("Vks", some 1)]⟩
  | .pengRobinson => ⟨[]⟩

/-- saft.py:190-285 with gamma_mie.py:184-280 or gamma_sw.py:143-218.  The second test for missing inputs, saft.py:238-241,
is never reached with one missing. -/
def saft [One K] (rest : Eos → List β → Lib β K → List (List K) → Except PyErr Unit) (name : List Char) (m : MethodStat)
    (k : Kwargs β K) : Except PyErr (Obj β) :=
  match template k with
  | .error e => .error e
  | .ok (b, l) =>
    match saftType name with
    | .error e => .error e
    | .ok t =>
      match k.composition with
      | none => .error .valueError
      | some c =>
        match (checkBeadParameters l (defaults t)).2 with
        | .error e => .error e
        | .ok l' =>
          match rest t b l' c with
          | .error e => .error e
          | .ok _ => .ok ⟨t, m, c.length, b⟩

/-- equations_of_state/__init__.py:36-96 `initiate_eos` -/
def initiate [One K] (restC : List β → Lib β K → Except PyErr Unit)
    (restS : Eos → List β → Lib β K → List (List K) → Except PyErr Unit)
    (eos : List Char) (numba cython python : Bool) (k : Kwargs β K) : Except PyErr (Obj β) :=
  match methodStat numba cython python with
  | .error e => .error e
  | .ok m =>
    match splitDot eos with
    | [fam, typ] =>
      if fam = "saft".toList then saft restS typ m k
      else if fam = "cubic".toList then
        if typ = "peng_robinson".toList then cubic restC m k else .error .importError
      else .error .importError
    | _ => .error .valueError

/-! ### The compiled functions of the Mie terms -/

/-- gamma_mie.py:23-35: importing the module, as in Aassoc.py. -/
def importMie (loaded compiled : Bool) : Except PyErr (Bool × Bool) :=
  if !loaded then .ok (true, false)
  else if compiled then .ok (false, true)
  else .error .importError

/-- gamma_mie.py:427-432 and the same lines wherever a compiled function is called; `stat` is `None` for an object
made without `method_stat`. -/
def mieKernel (flag : Bool × Bool) (stat : Option MethodStat) : Except PyErr Impl :=
  match stat with
  | none => .error .attributeError
  | some m =>
    if m.cython && flag.1 then (if flag.2 then .ok .cython else .error .other)
    else if m.python then .ok .python
    else .ok .numba

end Verif.Construct
