import Verif.Basic.Py
import Verif.Model.ReadInput

/-!
# Fitting input: `despasito/parameter_fitting/__init__.py`, `fit_functions.py`, `interface.py`

Strings are lists of characters.  Values of dictionaries are of an arbitrary type `ν`; the methods of
the equation of state that are called (`check_bounds`, `guess_parameters`, `update_parameter`) are
parameters.  Log messages are dropped.
-/

namespace Verif.FitInput
open Verif

/-- Python strings as lists of characters, split at `_` in fit_functions.py:50 and 108. -/
abbrev Str := List Char

/-- `pat in s` for strings. Used in fit_functions.py:172. -/
def hasSub (pat : Str) : Str → Bool
  | [] => pat.isPrefixOf []
  | c :: r => pat.isPrefixOf (c :: r) || hasSub pat r

/-- Scan of `s.replace(pat, "")`: `k` characters of the current occurrence are still to be
skipped. Used in fit_functions.py:173. -/
def removeFrom (pat : Str) : Nat → Str → Str
  | _, [] => []
  | k + 1, _ :: r => removeFrom pat k r
  | 0, c :: r => if pat.isPrefixOf (c :: r) then removeFrom pat (pat.length - 1) r
      else c :: removeFrom pat 0 r

/-- `s.replace(pat, "")` for a non-empty `pat`. Used in fit_functions.py:173. -/
def removeSub (pat s : Str) : Str := removeFrom pat 0 s

/-- The text searched for in a key, fit_functions.py:172. -/
def boundsWord : Str := ['b', 'o', 'u', 'n', 'd', 's']

/-- The text removed from a key, fit_functions.py:173. -/
def boundsTag : Str := ['_', 'b', 'o', 'u', 'n', 'd', 's']

/-- The key of the bead to fit. Used in fit_functions.py:114-187. -/
def fitBead : Str := "fit_bead".toList
/-- The key of the names of parameters to fit. Used in fit_functions.py:114-187. -/
def fitNames : Str := "fit_parameter_names".toList

section
variable {ν : Type}

/-- One pass of the loop of `consolidate_bounds`, fit_functions.py:171-185.  The list `bounds` and the
other entries of the new dictionary are kept apart (no other key can be `"bounds"`, since it would
contain that word). -/
def consolidateStep (names : List Str) (st : List ν × PyDict Str ν) (p : Str × ν) :
    List ν × PyDict Str ν :=
  if hasSub boundsWord p.1 then
    if removeSub boundsTag p.1 ∈ names then
      (st.1.set (names.idxOf (removeSub boundsTag p.1)) p.2, st.2)
    else st
  else (st.1, st.2.set p.1 p.2)

/-- `consolidate_bounds`, fit_functions.py:114-187.  `dflt` is the pair `[0, 1e4]`, `asNames` reads the
value of `fit_parameter_names` as list of strings. -/
def consolidate (dflt : ν) (asNames : ν → List Str) (opts : PyDict Str ν) :
    Except PyErr (List ν × PyDict Str ν) :=
  if opts.contains fitBead = false then .error .valueError
  else match opts.get? fitNames with
    | none => .error .valueError
    | some v =>
      .ok (opts.entries.foldl (consolidateStep (asNames v))
        (List.replicate (asNames v).length dflt, PyDict.empty))

/-- First part of a parameter name, `param.split("_")[0]`. Used in fit_functions.py:105-109. -/
def firstPart (name : Str) : Str := (ReadInput.splitUnder name).headD []

/-- Loop of `check_parameter_bounds`, fit_functions.py:105-109: `bounds[i]` of a list that is too short
is an `IndexError`. -/
def checkBounds (check : Str → Str → ν → Except PyErr ν) :
    List Str → List ν → Except PyErr (List ν)
  | [], _ => .ok []
  | _ :: _, [] => .error .indexError
  | n :: ns, b :: bs =>
    match check (firstPart n) n b with
    | .error e => .error e
    | .ok b' => match checkBounds check ns bs with
      | .error e => .error e
      | .ok r => .ok (b' :: r)

/-- The parameter and the groups a name of a fitted parameter stands for, as derived both in
`initial_guess` (fit_functions.py:48-65) and in `update_parameters` (interface.py:115-135). -/
def address (bead name : Str) : Except PyErr (Str × List Str) :=
  match ReadInput.splitUnder name with
  | [p] => .ok (p, [bead])
  | [p, b] => .ok (p, [bead, b])
  | _ => .error .valueError

/-- `initial_guess`, fit_functions.py:16-67. -/
def initialGuess (guess : Str → List Str → Except PyErr ν) (bead : Str) :
    List Str → Except PyErr (List ν)
  | [] => .ok []
  | n :: ns =>
    match address bead n with
    | .error e => .error e
    | .ok a => match guess a.1 a.2 with
      | .error e => .error e
      | .ok v => match initialGuess guess bead ns with
        | .error e => .error e
        | .ok r => .ok (v :: r)

/-- `update_parameters`, interface.py:95-138, on an equation of state with state `σ`.  The state is
returned also when an exception is raised, since it stays changed.  The refresh at the end is the
parameter `refresh`. -/
def updateParameters {σ : Type} (update : Str → List Str → ν → σ → Except PyErr σ)
    (refresh : σ → Except PyErr σ) (bead : Str) : List Str → List ν → σ → Except PyErr Unit × σ
  | [], _, s => match refresh s with
    | .error e => (.error e, s)
    | .ok s' => (.ok (), s')
  | n :: ns, vs, s =>
    match address bead n with
    | .error e => (.error e, s)
    | .ok a => match vs with
      | [] => (.error .indexError, s)
      | v :: vs' => match update a.1 a.2 v s with
        | .error e => (.error e, s)
        | .ok s' => updateParameters update refresh bead ns vs' s'

/-! ### What `fit` does to its arguments -/

/-- The key of the global method. Used in parameter_fitting/__init__.py:195-199. -/
def methodKey : Str := "method".toList
/-- The key of the worker pool. Used in parameter_fitting/__init__.py:124-126. -/
def mpKey : Str := "MultiprocessingObject".toList

/-- `__init__.py:124-126`: `global_opts` after the multiprocessing object was stored in it. -/
def storeMp (g : PyDict Str ν) (mp : Option ν) : PyDict Str ν :=
  match mp with
  | none => g
  | some m => g.set mpKey m

/-- `__init__.py:195-199`: the optimisation method, and the dictionary afterwards.  `de` stands for
`"differential_evolution"`. -/
def takeMethod (de : ν) (g : PyDict Str ν) : ν × PyDict Str ν :=
  match g.get? methodKey with
  | some m => (m, g.erase methodKey)
  | none => (de, g)

/-- The two together: the method used, the options handed to the optimiser, which are the caller's
dictionary object itself (`__init__.py:115, 124-126, 195-199`). -/
def fitOptions (de : ν) (g : PyDict Str ν) (mp : Option ν) : ν × PyDict Str ν :=
  takeMethod de (storeMp g mp)

/-- A call without `global_opts` uses the dictionary created once with the function
(`global_opts={}` in the signature, `__init__.py:26`): the first component is what the call uses, the
second the content of that shared dictionary afterwards. -/
def fitOptionsDefault (de : ν) (shared : PyDict Str ν) (given : Option (PyDict Str ν))
    (mp : Option ν) : (ν × PyDict Str ν) × PyDict Str ν :=
  match given with
  | some g => (fitOptions de g mp, shared)
  | none => (fitOptions de shared mp, (fitOptions de shared mp).2)

/-- `__init__.py:129-132`: one data set after the keyword arguments of `fit` were added to it. -/
def addKwargs (data kwargs : PyDict Str ν) : PyDict Str ν :=
  kwargs.entries.foldl (fun d p => if d.contains p.1 then d else d.set p.1 p.2) data

end

/-! ### Tables of predictions -/

/-- One entry of the output of a thermodynamic calculation: a number for each state, or a row of
numbers (one for each component) for each state. Used in fit_functions.py:221-226. -/
inductive Col (α : Type) where
  | scalars (l : List α)
  | rows (l : List (List α))
  deriving DecidableEq, Repr

variable {α : Type}

/-- Numpy assignment of a one-dimensional array to a slice of `n` elements. Used in fit_functions.py:235-236. -/
def bcast (n : Nat) (l : List α) : Except PyErr (List α) :=
  if l.length = n then .ok l
  else match l with
    | [a] => .ok (List.replicate n a)
    | _ => .error .valueError

/-- fit_functions.py:221-226: the number of columns of an entry, from its first state. -/
def Col.width : Col α → Except PyErr Nat
  | .scalars [] => .error .indexError
  | .scalars (_ :: _) => .ok 1
  | .rows [] => .error .indexError
  | .rows (r :: _) => .ok r.length

/-- Number of states of an entry. Used in fit_functions.py:190-251. -/
def Col.points : Col α → Nat
  | .scalars l => l.length
  | .rows l => l.length

/-- The list with every row brought to length `w`, fit_functions.py:235-236. -/
def fillRows (w : Nat) : List (List α) → Except PyErr (List (List α))
  | [] => .ok []
  | r :: rs => match bcast w r with
    | .error e => .error e
    | .ok r' => match fillRows w rs with
      | .error e => .error e
      | .ok rs' => .ok (r' :: rs')

/-- Column `j` of a table given by rows. Used in fit_functions.py:245-247. -/
def column (j : Nat) (rows : List (List α)) : List α := rows.filterMap (fun r => r[j]?)

/-- fit_functions.py:245-247 (and 238-240 for one column): the columns `0 … w - 1`, each brought to
the number of states. -/
def columns (n : Nat) (rows : List (List α)) : List Nat → Except PyErr (List (List α))
  | [] => .ok []
  | j :: js => match bcast n (column j rows) with
    | .error e => .error e
    | .ok c => match columns n rows js with
      | .error e => .error e
      | .ok cs => .ok (c :: cs)

/-- The columns of one entry, fit_functions.py:231-247. -/
def Col.toColumns (n : Nat) : Col α → Except PyErr (List (List α))
  | .scalars l => match bcast n l with
    | .error e => .error e
    | .ok c => .ok [c]
  | .rows [] => .error .indexError
  | .rows (r :: rs) => match fillRows r.length (r :: rs) with
    | .error e => .error e
    | .ok t => columns n t (List.range r.length)

/-- All entries one after the other. Used in fit_functions.py:190-251. -/
def allColumns (n : Nat) : List (Col α) → Except PyErr (List (List α))
  | [] => .ok []
  | c :: cs => match c.toColumns n with
    | .error e => .error e
    | .ok a => match allColumns n cs with
      | .error e => .error e
      | .ok b => .ok (a ++ b)

/-- `len_cluster` of several entries, fit_functions.py:221-226. -/
def widths : List (Col α) → Except PyErr (List Nat)
  | [] => .ok []
  | c :: cs => match c.width with
    | .error e => .error e
    | .ok w => match widths cs with
      | .error e => .error e
      | .ok ws => .ok (w :: ws)

/-- The matrix of `reformat_output` for more than one entry, fit_functions.py:220-249; it is given by its
columns (the callers transpose the matrix, so that these are its rows).  An entry mixing numbers and
rows (a failed state) is not modelled. -/
def reformat (cluster : List (Col α)) : Except PyErr (List (List α)) :=
  match widths cluster with
  | .error e => .error e
  | .ok _ =>
    match cluster with
    | [] => .error .indexError
    | c :: cs => allColumns c.points (c :: cs)

/-- The matrix returned by `reformat_output`: an array with one axis, or one with two, given by the columns the caller
reads. Used in fit_functions.py:212, 249. -/
inductive Table (α : Type) where
  | vector (l : List α)
  | columns (l : List (List α))
  deriving DecidableEq, Repr

/-- `reformat_output` with both results, fit_functions.py:190-251.  A single entry is transposed before the callers transpose
the matrix, so that they read its rows; rows of different lengths make no array (this is so since numpy 1.24).  A single entry
that is no list, for which `len_cluster` is `[1]`, is left out. -/
def reformatOutput (cluster : List (Col α)) : Except PyErr (Table α × List Nat) :=
  match cluster with
  | [.scalars l] => .ok (.vector l, [l.length])
  | [.rows []] => .ok (.vector [], [0])
  | [.rows (r :: rs)] =>
    if rs.all (fun q => q.length = r.length) then .ok (.columns (r :: rs), [rs.length + 1]) else .error .valueError
  | l =>
    match widths l with
    | .error e => .error e
    | .ok ws => match reformat l with
      | .error e => .error e
      | .ok m => .ok (.columns m, ws)

/-! ### Constraints -/

/-- One entry of the dictionary of constraints.  `fn` is the name of the function, `args` its
arguments. Used in fit_functions.py:363-376. -/
structure Constraint (α : Type) where
  fn : Option Str
  type : Option Str
  args : Option α

/-- What `initialize_constraints` puts in its result. Used in fit_functions.py:361-404. -/
inductive Output (α : Type) where
  | linear (fn : Str) (args : α)
  | nonlinear (fn : Str) (args : α)
  | dict (type fn : Str) (args : α)
  deriving DecidableEq, Repr

/-- The type of a linear constraint. Used in fit_functions.py:361-404. -/
def tLinear : Str := "linear".toList
/-- The type of a nonlinear constraint. Used in fit_functions.py:361-404. -/
def tNonlinear : Str := "nonlinear".toList
/-- The type of an equality constraint. Used in fit_functions.py:361-404. -/
def tEq : Str := "eq".toList
/-- The type of an inequality constraint. Used in fit_functions.py:361-404. -/
def tIneq : Str := "ineq".toList

/-- fit_functions.py:363-376: the checks common to all kinds. -/
def commonChecks (known : Str → Bool) (c : Constraint α) : Except PyErr (Str × α) :=
  match c.fn with
  | none => .error .valueError
  | some f =>
    if known f = false then .error .importError
    else match c.args with
      | none => .error .valueError
      | some a => .ok (f, a)

/-- One pass of the loop, fit_functions.py:361-404.  `prev` is the value of the python variable
`output`, which survives from one pass to the next.  The keyword arguments of scipy's classes are left
out. -/
def initOne (known : Str → Bool) (kind : Str) (prev : Option (Output α)) (c : Constraint α) :
    Except PyErr (Output α) :=
  match commonChecks known c with
  | .error e => .error e
  | .ok fa =>
    if kind = "class".toList then
      match c.type with
      | none => .error .valueError
      | some t =>
        if t = tLinear ∨ t = tNonlinear then .error .valueError
        else if t = tLinear then .ok (.linear fa.1 fa.2)
        else if t = tNonlinear then .ok (.nonlinear fa.1 fa.2)
        else match prev with
          | none => .error .unboundLocal
          | some o => .ok o
    else if kind = "dict".toList then
      match c.type with
      | none => .error .valueError
      | some t =>
        if t = tEq ∨ t = tIneq then .error .valueError
        else .ok (.dict t fa.1 fa.2)
    else .error .valueError

/-- The loop. Used in fit_functions.py:325-406. -/
def initLoop (known : Str → Bool) (kind : Str) :
    Option (Output α) → List (Constraint α) → Except PyErr (List (Output α))
  | _, [] => .ok []
  | prev, c :: cs =>
    match initOne known kind prev c with
    | .error e => .error e
    | .ok o => match initLoop known kind (some o) cs with
      | .error e => .error e
      | .ok r => .ok (o :: r)

/-- `initialize_constraints`, fit_functions.py:325-406.  `known` says which names
`constraint_types.py` defines (only `type1`). -/
def initConstraints (known : Str → Bool) (kind : Str) (cs : List (Constraint α)) :
    Except PyErr (List (Output α)) := initLoop known kind none cs

end Verif.FitInput
