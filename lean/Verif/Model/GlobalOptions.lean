import Verif.Basic.Py

/-!
# What the global methods hand to scipy: `despasito/parameter_fitting/global_methods.py`

Each global method turns the user's dictionary of options into keyword arguments of a function of scipy.  Here: the options
from the fit to that call.

Simplifications: what scipy does with the arguments is not modelled, only which keywords it knows and which arguments the code
gives by itself; the values of options are opaque, except a `MultiprocessingJob`, of which the number of cores is kept; the
contents of `minimizer_kwargs` are in `GlobalMethods.minimizerOpts`; log messages are left out.
-/

namespace Verif.GlobalOptions
open Verif

variable {ν : Type}

/-- A value in the user's dictionary: a plain one, or a `MultiprocessingJob` with its number of cores.
parameter_fitting/__init__.py:123-126. -/
inductive Given (ν : Type) where
  | plain (v : ν)
  | pool (ncores : Nat)
  deriving DecidableEq, Repr

/-- A value handed on: one of the user's, a default or constant of the code (written as text), the `map` of the pool, a
`_WriteParameterResults`, or another object made by the method. global_methods.py:121-164, 222-266, 500-517 and 598-660. -/
inductive Handed (ν : Type) where
  | given (g : Given ν)
  | const (text : String)
  | poolMap
  | writer (cut file : Option (Given ν))
  | made (what : String)
  deriving DecidableEq, Repr

/-- Python's view of plain values: whether they count as true, and `value > 1`, which may raise a `TypeError`. Used in
global_methods.py:138 and 147. -/
structure Plain (ν : Type) where
  truthy : ν → Bool
  aboveOne : ν → Except PyErr Bool

/-- global_methods.py:138 and 614: truth of a value of the dictionary. -/
def Handed.truthy (P : Plain ν) : Handed ν → Bool
  | .given (.plain v) => P.truthy v
  | _ => true

/-- global_methods.py:147 and 505: `value > 1`. -/
def Handed.aboveOne (P : Plain ν) : Handed ν → Except PyErr Bool
  | .given (.plain v) => P.aboveOne v
  | _ => .error .typeError

/-- The options `fit` passes on: with the `MultiprocessingJob`, if there is one, and without the name of the method.
parameter_fitting/__init__.py:123-126 and 195-199. -/
def fitOptions (mp : Option Nat) (user : PyDict String (Given ν)) : PyDict String (Given ν) :=
  (match mp with
    | none => user
    | some n => user.set "MultiprocessingObject" (.pool n)).erase "method"

/-- The user's dictionary as a dictionary of values handed on (`global_opts.copy()`). global_methods.py:121 and 598. -/
def copied (user : PyDict String (Given ν)) : PyDict String (Handed ν) :=
  ⟨user.entries.map fun p => (p.1, .given p.2)⟩

/-- One of the options that ask for a file: it is removed and the file is asked for. global_methods.py:124-129 and 131-136,
600-605 and 607-612. -/
def askFile (key : String) (g : PyDict String (Handed ν)) : PyDict String (Handed ν) :=
  match g.get? key with
  | some _ => (g.erase key).set "write_intermediate_file" (.const "True")
  | none => g

/-- The options of the file of intermediate results, replaced by a callback. global_methods.py:123-140 and 600-616. -/
def callbackOptions (P : Plain ν) (user : PyDict String (Given ν)) : PyDict String (Handed ν) :=
  let g := askFile "filename" (askFile "obj_cut" (copied user))
  match g.get? "write_intermediate_file" with
  | some v =>
    if v.truthy P then
      (g.erase "write_intermediate_file").set "callback" (.writer (user.get? "obj_cut") (user.get? "filename"))
    else g
  | none => g

/-- The options that belong to the file. global_methods.py:123 and 225. -/
def fileOptions : List String := ["obj_cut", "filename", "write_intermediate_file"]

/-- `"workers" in global_opts and global_opts["workers"] > 1`. global_methods.py:147 and 505. -/
def flagWorkers (P : Plain ν) (g : PyDict String (Handed ν)) : Except PyErr Bool :=
  match g.get? "workers" with
  | none => .ok false
  | some w => w.aboveOne P

/-- The loop over the options of differential evolution and brute: the new options, and whether the data sets lose their
`MultiprocessingJob`. `skip` are the keys left out. global_methods.py:143-153 and 501-511. -/
def workerLoop (P : Plain ν) (g : PyDict String (Handed ν)) (skip : List String) :
    List (String × Handed ν) → PyDict String (Handed ν) × Bool → Except PyErr (PyDict String (Handed ν) × Bool)
  | [], s => .ok s
  | (k, v) :: r, (d, b) =>
    if k = "MultiprocessingObject" then
      match flagWorkers P g with
      | .error e => .error e
      | .ok f =>
        match v with
        | .given (.pool n) =>
          if 1 < n ∧ f = true then workerLoop P g skip r (d.set "workers" .poolMap, true) else workerLoop P g skip r (d, b)
        | _ => .error .attributeError
    else if skip.contains k then workerLoop P g skip r (d, b)
    else workerLoop P g skip r (d.set k v, b)

/-- The plain loop of shgo and basin hopping. global_methods.py:226-230 and 619-623. -/
def copyLoop (skip : List String) : List (String × Handed ν) → PyDict String (Handed ν) → PyDict String (Handed ν)
  | [], d => d
  | (k, v) :: r, d => if skip.contains k then copyLoop skip r d else copyLoop skip r (d.set k v)

/-- A call of a function of scipy with keyword arguments: a `TypeError` if one is unknown, or given by the code as well.
global_methods.py:160-162, 258-264, 516-518 and 656-658. -/
def scipyCall (known fixed : List String) (d : PyDict String (Handed ν)) : Except PyErr (PyDict String (Handed ν)) :=
  if d.keys.all (fun k => known.contains k && !fixed.contains k) then .ok d else .error .typeError

/-- The data sets of a fit: the options of their calculations. Used in global_methods.py:918-938. -/
abbrev DataSets (τ : Type) := PyDict String (PyDict String τ)

/-- `_del_Data_MultiprocessingObject`, global_methods.py:918-938. The dictionary is new, the data sets in it are those of the
caller. -/
def stripData {τ : Type} (d : DataSets τ) : DataSets τ :=
  ⟨d.entries.map fun p => (p.1, p.2.erase "MultiprocessingObject")⟩

/-- What reaches scipy: keyword arguments and data sets. Used in global_methods.py:160-162. -/
structure Call (ν τ : Type) where
  opts : PyDict String (Handed ν)
  data : DataSets τ

variable {τ : Type}

/-- `differential_evolution` up to the call. `constraints` says whether there are any. global_methods.py:121-162. -/
def evolution (P : Plain ν) (known : List String) (user : PyDict String (Given ν)) (constraints : Bool) (data : DataSets τ) :
    Except PyErr (Call ν τ) :=
  let g := callbackOptions P user
  match workerLoop P g fileOptions g.entries (⟨[("init", .const "random")]⟩, false) with
  | .error e => .error e
  | .ok (d, b) =>
    let d := if constraints then d.set "constraints" (.made "constraints") else d
    match scipyCall known ["func", "bounds", "args"] d with
    | .error e => .error e
    | .ok d => .ok ⟨d, if b then stripData data else data⟩

/-- `shgo` up to the call. global_methods.py:222-264. -/
def shgo (known : List String) (user : PyDict String (Given ν)) (constraints : Bool) (data : DataSets τ) :
    Except PyErr (Call ν τ) :=
  let d := copyLoop ("MultiprocessingObject" :: fileOptions) (copied user).entries
    ⟨[("sampling_method", .const "sobol")]⟩
  let d := if constraints then d.set "constraints" (.made "constraints") else d
  match scipyCall known ["func", "bounds", "args", "minimizer_kwargs"] d with
  | .error e => .error e
  | .ok d => .ok ⟨d.set "minimizer_kwargs" (.made "minimizer_kwargs"), data⟩

/-- `brute` up to the call. global_methods.py:500-518. -/
def brute (P : Plain ν) (known : List String) (user : PyDict String (Given ν)) (data : DataSets τ) :
    Except PyErr (Call ν τ) :=
  let g := copied user
  match workerLoop P g [] g.entries (⟨[("Ns", .const "5"), ("finish", .made "minimize")]⟩, false) with
  | .error e => .error e
  | .ok (d, b) =>
    match scipyCall known ["func", "ranges", "args"] (d.set "full_output" (.const "True")) with
    | .error e => .error e
    | .ok d => .ok ⟨d, if b then stripData data else data⟩

/-- The number of iterations `brute` reports for `dims` parameters and `Ns` points. global_methods.py:523. -/
def bruteCount (dims Ns : Nat) : Nat := dims * Ns

/-- `basinhopping` up to the call; the objects for the steps and the bounds are made without an exception.
global_methods.py:598-658. -/
def hopping (P : Plain ν) (known : List String) (user : PyDict String (Given ν)) (data : DataSets τ) :
    Except PyErr (Call ν τ) :=
  let g := callbackOptions P user
  let d := copyLoop ["MultiprocessingObject"] g.entries
    ⟨[("niter", .const "10"), ("T", .const "0.5"), ("niter_success", .const "3")]⟩
  let d := (d.set "take_step" (.made "BasinStep")).erase "minimizer_kwargs"
  match scipyCall known ["func", "x0", "accept_test", "minimizer_kwargs"] d with
  | .error e => .error e
  | .ok d => .ok ⟨(d.set "accept_test" (.made "BasinBounds")).set "minimizer_kwargs" (.made "minimizer_kwargs"), data⟩

/-- `single_objective`: the parameters and the objective that are returned. global_methods.py:52-65. -/
def singleObjective {X Y : Type} (computeObj : X → Except PyErr Y) (guess : X) (_user : PyDict String (Given ν)) :
    Except PyErr (X × Y) :=
  match computeObj guess with
  | .error e => .error e
  | .ok y => .ok (guess, y)

/-- Whether the grid minimisation uses the pool, and with which data sets. global_methods.py:333-345. -/
def gridPool (user : PyDict String (Given ν)) (data : DataSets τ) : Except PyErr (Bool × DataSets τ) :=
  match user.get? "MultiprocessingObject" with
  | none => .ok (false, data)
  | some (.pool n) => if 1 < n then .ok (true, stripData data) else .ok (false, data)
  | some _ => .error .attributeError

end Verif.GlobalOptions
