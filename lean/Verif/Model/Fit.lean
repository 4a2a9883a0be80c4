import Verif.Model.FitInput
import Verif.Model.GlobalMethods

/-!
# `fit` from its arguments to its result: `despasito/parameter_fitting/__init__.py`

The steps are those of `FitInput`; here they are put together in the order of the code, with what each of them raises.

Simplifications: the methods of the equation of state, the data classes and the global methods are parameters; log messages
are dropped, except that those inside the last `try` read the result; what stays changed in the caller's dictionaries is in
`FitInput.fitOptions` (C75).
-/

namespace Verif.Fit
open Verif Verif.FitInput

/-- A value in one of the dictionaries: text, a list of texts, a list (of numbers), an equation of state, or anything else.
parameter_fitting/__init__.py:23-30. -/
inductive Val (E R : Type) where
  | text (s : Str)
  | texts (l : List Str)
  | nums (l : List R)
  | eos (e : E)
  | other (tag : Nat)
  deriving DecidableEq

variable {E R D : Type}

/-- The dictionaries of `fit`. parameter_fitting/__init__.py:23-30. -/
abbrev Dict (E R : Type) := PyDict Str (Val E R)

/-- What `global_minimization` is called with. parameter_fitting/__init__.py:203-211. -/
structure Call (E R D : Type) where
  method : Val E R
  guess : List R
  bounds : List (Val E R)
  bead : Val E R
  names : List Str
  data : List (Str × D)
  globalOpts : Dict E R
  minimizerOpts : Option (Dict E R)

/-- What `fit` uses of the rest of the package: bounds and guesses of an equation of state, the data classes by their names,
and the global methods, which return parameters and an objective. parameter_fitting/__init__.py:149-211. -/
structure World (E R D : Type) where
  checkBounds : E → Str → Str → Val E R → Except PyErr (Val E R)
  guess : E → Str → List Str → Except PyErr R
  dataClass : Val E R → Option (Dict E R → Except PyErr D)
  minimise : Call E R D → Except PyErr (List R × R)

/-- The arguments of `fit`. parameter_fitting/__init__.py:23-30. -/
structure Args (E R : Type) where
  params : Option (Dict E R)
  data : Option (PyDict Str (Dict E R))
  globalOpts : Dict E R
  minimizerOpts : Option (Dict E R)
  pool : Option (Val E R)
  kwargs : Dict E R

/-- What `fit` returns. parameter_fitting/__init__.py:228-233. -/
structure Output (E R : Type) where
  bead : Val E R
  names : List Str
  x : List R
  value : R
  deriving DecidableEq

/-- The key of the equation of state of a data set. parameter_fitting/__init__.py:149-151. -/
def eosKey : Str := "eos_obj".toList
/-- The key of the data class. parameter_fitting/__init__.py:171. -/
def classKey : Str := "data_class_type".toList
/-- The key of the initial guess. parameter_fitting/__init__.py:154. -/
def guessKey : Str := "parameters_guess".toList
/-- The default method. parameter_fitting/__init__.py:199. -/
def defaultMethod : Val E R := .text "differential_evolution".toList

/-- parameter_fitting/__init__.py:122-132: a data set with the pool and the keyword arguments. -/
def prepared (pool : Option (Val E R)) (kwargs : Dict E R) (d : Dict E R) : Dict E R :=
  addKwargs (storeMp d pool) kwargs

/-- parameter_fitting/__init__.py:134-140: the list of names; one text is a list of one name. -/
def namesOf (params : Dict E R) : Except PyErr (List Str) :=
  match params.get? fitNames with
  | none => .error .keyError
  | some (.texts l) => .ok l
  | some (.text s) => .ok [s]
  | some _ => .error .valueError

/-- The list of names in the value put back at parameter_fitting/__init__.py:136, as `consolidate_bounds` reads it. -/
def asNames : Val E R → List Str
  | .texts l => l
  | _ => []

/-- The default bounds `[0, 1e4]` of a parameter, fit_functions.py:168-170, given as a value of the dictionary. -/
def defaultBounds (zero tenThousand : R) : Val E R := .nums [zero, tenThousand]

/-- parameter_fitting/__init__.py:149-151: the equation of state of the first data set. A list without entries is an
`IndexError`; a value without `check_bounds` is an `AttributeError` as soon as it is used, here at once. -/
def firstEos (data : List (Str × Dict E R)) : Except PyErr E :=
  match data with
  | [] => .error .indexError
  | (_, d) :: _ => match d.get? eosKey with
    | none => .error .keyError
    | some (.eos e) => .ok e
    | some _ => .error .attributeError

/-- parameter_fitting/__init__.py:154-159: the guess of the user, or of the equation of state. The length of a value that is
not a list is a `TypeError`; the length of a text is not considered here. The bead is text (others fail in `split`). -/
def guessOf (W : World E R D) (e : E) (rest : Dict E R) (bead : Str) (names : List Str) : Except PyErr (List R) :=
  match rest.get? guessKey with
  | some (.nums g) => if g.length = names.length then .ok g else .error .valueError
  | some _ => .error .typeError
  | none => initialGuess (W.guess e) bead names

/-- parameter_fitting/__init__.py:170-192: the data objects in the order of the data sets. -/
def objects (W : World E R D) : List (Str × Dict E R) → Except PyErr (List (Str × D))
  | [] => .ok []
  | (k, d) :: r =>
    match d.get? classKey with
    | none => .error .keyError
    | some c => match W.dataClass c with
      | none => .error .importError
      | some make => match make d with
        | .error _ => .error .attributeError
        | .ok o => match objects W r with
          | .error e => .error e
          | .ok os => .ok ((k, o) :: os)

/-- parameter_fitting/__init__.py:201-226: the minimisation and the messages on its result, which read one parameter for each
name. Every exception becomes a `TypeError`. -/
def minimised (W : World E R D) (c : Call E R D) : Except PyErr (List R × R) :=
  match W.minimise c with
  | .error _ => .error .typeError
  | .ok (x, v) => if x.length < c.names.length then .error .typeError else .ok (x, v)

/-- The text of the bead, for the initial guess. Used in fit_functions.py:48-65. -/
def beadText : Val E R → Str
  | .text s => s
  | _ => []

/-- parameter_fitting/__init__.py:142-160: bounds, guess and the remaining options, from the consolidated options. -/
def start (W : World E R D) (data : List (Str × Dict E R)) (bounds : List (Val E R)) (rest : Dict E R) (names : List Str) :
    Except PyErr (Val E R × List (Val E R) × List R) :=
  match firstEos data with
  | .error e => .error e
  | .ok eos => match checkBounds (W.checkBounds eos) names bounds with
    | .error e => .error e
    | .ok b => match rest.get? fitBead with
      | none => .error .keyError
      | some bead => match guessOf W eos rest (beadText bead) names with
        | .error e => .error e
        | .ok g => .ok (bead, b, g)

/-- The call of `global_minimization` that `fit` makes. parameter_fitting/__init__.py:108-211. The branch of 147-148, bounds of
zeros, is never reached: `consolidate_bounds` always makes bounds. -/
def fitCall (W : World E R D) (zero tenThousand : R) (A : Args E R) : Except PyErr (Call E R D) :=
  match A.params with
  | none => .error .valueError
  | some params => match A.data with
    | none => .error .valueError
    | some data =>
      let sets := data.entries.map fun p => (p.1, prepared A.pool A.kwargs p.2)
      match namesOf params with
      | .error e => .error e
      | .ok names => match consolidate (defaultBounds zero tenThousand) asNames (params.set fitNames (.texts names)) with
        | .error e => .error e
        | .ok (bounds, rest) => match start W sets bounds rest names with
          | .error e => .error e
          | .ok (bead, b, g) => match objects W sets with
            | .error e => .error e
            | .ok os =>
              let o := fitOptions defaultMethod A.globalOpts A.pool
              .ok ⟨o.1, g, b, bead, names, os, o.2, A.minimizerOpts⟩

/-- `fit`. parameter_fitting/__init__.py:23-233. -/
def fit (W : World E R D) (zero tenThousand : R) (A : Args E R) : Except PyErr (Output E R) :=
  match fitCall W zero tenThousand A with
  | .error e => .error e
  | .ok c => match minimised W c with
    | .error e => .error e
    | .ok (x, v) => .ok ⟨c.bead, c.names, x, v⟩

/-- `global_methods.single_objective` on the call: the objective at the guess. global_methods.py:20-65. -/
def single (obj : List (Str × D) → List R → Except PyErr R) (c : Call E R D) : Except PyErr (List R × R) :=
  match obj c.data c.guess with
  | .error e => .error e
  | .ok v => .ok (c.guess, v)

/-- The objective of a fit: `compute_obj` with the data sets' objectives. fit_functions.py:409-508. -/
def objective {K : Type} [Field K] [LinearOrder K] (eval : D → List (Ext K) → Except PyErr (Ext K)) (nNames : Nat)
    (bounds : List (Ext K × Ext K)) (data : List (Str × D)) (x : List (Ext K)) : Except PyErr (Ext K) :=
  Objective.computeObj x nNames (fun p => data.map fun d => eval d.2 p) bounds none

end Verif.Fit
