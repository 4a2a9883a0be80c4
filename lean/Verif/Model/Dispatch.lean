import Verif.Basic.Py

/-!
# Entry points: `main.py`, `__main__.py`, `__init__.py`, the factories of calculations, equations of
state and global methods, and the output tables of `input_output/write_output.py`
-/

namespace Verif.Dispatch
open Verif

/-! ### Calculations -/

/-- An attribute of a python module as `getattr` finds it: a function, here what a call gives, or something
else (an imported module, a class, a logger), whose call in this place raises.
Used in thermodynamics/__init__.py:19-65. -/
inductive Attr (α : Type) where
  | func (call : Except PyErr α)
  | other

/-- thermodynamics/__init__.py:19-65 `thermo`.  `attrs` are the attributes of the module
`calculation_types`. -/
def thermo {α : Type} (attrs : PyDict String (Attr α)) (calculationType : Option String) : Except PyErr α :=
  match calculationType with
  | none => .error .valueError
  | some t => match attrs.get? t with
    | none => .error .importError
    | some (.func (.ok r)) => .ok r
    | some (.func (.error _)) => .error .typeError
    | some .other => .error .typeError

/-- thermodynamics/calculation_types.py:24-1312: its public functions. -/
def calculationTypes : List String :=
  ["bubble_pressure", "dew_pressure", "activity_coefficient", "flash", "saturation_properties",
    "liquid_properties", "vapor_properties", "solubility_parameter", "verify_eos"]

/-- The functions starting with an underscore: they take one tuple of a fixed length, so that a call with an equation of state
and keyword arguments raises. calculation_types.py:147-1365. -/
def calculationWrappers : List String :=
  ["_bubble_pressure_wrapper", "_dew_pressure_wrapper", "_activity_coefficient_wrapper", "_flash_wrapper",
    "_saturation_properties_wrapper", "_liquid_properties_wrapper", "_vapor_properties_wrapper",
    "_solubility_parameter_wrapper", "_verify_eos_wrapper"]

/-- The imported names and the logger (calculation_types.py:13-21): modules and the logger cannot be called, and
`MultiprocessingJob` compares its argument, here the equation of state, with a number. -/
def calculationOthers : List String := ["np", "logging", "MultiprocessingJob", "calc", "constants", "gtb", "logger"]

/-- The module `calculation_types` as a dictionary of attributes; `call` is what a calculation type gives. The attributes that
every module has, like `__name__`, are left out. calculation_types.py:13-1365. -/
def calculationModule {α : Type} (call : String → Except PyErr α) : PyDict String (Attr α) :=
  ⟨calculationTypes.map (fun n => (n, .func (call n))) ++
    calculationWrappers.map (fun n => (n, .func (.error .typeError))) ++ calculationOthers.map (fun n => (n, .other))⟩

/-! ### Command line -/

/-- The flags that are given on the command line. Used in main.py:22-95. -/
structure Flags where
  verbose : Nat
  console : Bool
  numba : Bool
  python : Bool
  cython : Bool
deriving DecidableEq

/-- What the parser returns (main.py:22-95): `--numba` has the action `store_false`. -/
structure Args where
  verbose : Nat
  console : Bool
  numba : Bool
  python : Bool
  cython : Bool
deriving DecidableEq

/-- main.py:22-95 `get_parser` applied to the flags. -/
def parse (f : Flags) : Args :=
  { verbose := f.verbose
    console := f.console
    numba := !f.numba
    python := f.python
    cython := f.cython }

/-- __main__.py:14-19: the logging level. -/
def level (v : Nat) : Nat :=
  if v = 0 then 20 else if v < 4 then (4 - v) * 10 else 10

/-- The three switches of `method_stat`. Used in equations_of_state/__init__.py:12-25. -/
structure MethodStat where
  numba : Bool
  cython : Bool
  python : Bool
deriving DecidableEq

/-- equations_of_state/__init__.py:12-25 `method_stat.__init__`. -/
def methodStat (numba cython python : Bool) : Except PyErr MethodStat :=
  if !(numba || cython || python) then .error .valueError
  else .ok { numba := if cython || python then false else numba, cython := cython, python := python }

/-- From the command line to the equation of state: __main__.py:50-61, read_input.py:130-133 and
equations_of_state/__init__.py:66, for an input file that does not set the switches itself. -/
def commandLineMethod (f : Flags) : Except PyErr MethodStat :=
  methodStat (parse f).numba (parse f).cython (parse f).python

/-! ### Equations of state -/

/-- `eos.split(".")`. Used in equations_of_state/__init__.py:68-92. -/
def splitDot : List Char → List (List Char)
  | [] => [[]]
  | c :: cs =>
    if c = '.' then [] :: splitDot cs
    else match splitDot cs with
      | [] => [[c]]
      | w :: ws => (c :: w) :: ws

/-- The equations of state there are. Used in saft/saft.py:24-55. -/
inductive Eos where
  | gammaMie
  | gammaSw
  | pengRobinson
deriving DecidableEq

/-- saft/saft.py:24-55 `saft_type`. -/
def saftType (name : List Char) : Except PyErr Eos :=
  if name = "gamma_mie".toList then .ok .gammaMie
  else if name = "gamma_sw".toList then .ok .gammaSw
  else .error .valueError

/-- equations_of_state/__init__.py:68-92: the class found for a name.  An import of a module that does not
exist raises `ModuleNotFoundError`, which is an `ImportError`; one without `EosType` is turned into an
`ImportError`.  The modules are those of the repository. -/
def findEos (eos : List Char) : Except PyErr Eos :=
  match splitDot eos with
  | [fam, typ] =>
    if fam = "saft".toList then saftType typ
    else if fam = "cubic".toList then
      if typ = "peng_robinson".toList then .ok .pengRobinson else .error .importError
    else .error .importError
  | _ => .error .valueError

/-! ### Loggers -/

/-- A handler with its level. Used in __init__.py:16-84. -/
structure Logger where
  level : Nat
  console : Option Nat
  file : Option (String × Nat)
deriving DecidableEq

/-- The argument `log_file`: not given, a truth value, or a name. Used in __init__.py:66-69. -/
inductive LogFile where
  | notGiven
  | flag (b : Bool)
  | name (s : String)
deriving DecidableEq

/-- __init__.py:53-63: the console handler. -/
def consoleStep (console : Option Bool) (verbose : Nat) (h : Option Nat) : Option Nat :=
  if console = some true then
    match h with
    | none => some verbose
    | some l => some l
  else none

/-- The file name: `isinstance(log_file, str)` or the default (__init__.py:68-69). -/
def LogFile.fileName : LogFile → String
  | .name s => s
  | _ => "despasito.log"

/-- __init__.py:65-84: the file handler.  The last branch, `not handler_logfile and handler_logfile is not
None`, is never taken: a handler is true. -/
def fileStep (lf : LogFile) (verbose : Nat) (h : Option (String × Nat)) : Option (String × Nat) :=
  match lf, h with
  | .notGiven, none => none
  | lf, none => some (lf.fileName, verbose)
  | _, some x => some x

/-- __init__.py:16-84 `initiate_logger`, for at most one handler of each kind. -/
def initiateLogger (console : Option Bool) (lf : LogFile) (verbose : Nat) (s : Logger) : Logger :=
  { level := verbose
    console := consoleStep console verbose s.console
    file := fileStep lf verbose s.file }

/-! ### `run` -/

/-- main.py:136: the options copied to every data set. -/
def fittingOpts : List String := ["objective_method", "nan_number", "nan_ratio"]

/-- main.py:143-145: the loop over these options for one data set. -/
def copyFitting {ν : Type} (settings : PyDict String ν) : List String → PyDict String ν → PyDict String ν
  | [], d => d
  | k :: ks, d => match settings.get? k with
    | none => copyFitting settings ks d
    | some v => copyFitting settings ks (d.set k v)

/-- main.py:122-125: the name of the output file; an empty name is false. -/
def outputFile (o : Option String) : String :=
  match o with
  | none => "despasito_out.txt"
  | some s => if s = "" then "despasito_out.txt" else s

/-- The global methods and whether each accepts local minimiser options and constraints
(global_methods.py:20, 68, 167, 269, 464, 534). -/
def methodTable : List (String × Bool × Bool) :=
  [("single_objective", false, false), ("differential_evolution", false, true), ("shgo", true, true),
    ("grid_minimization", true, true), ("brute", false, false), ("basinhopping", true, false)]

/-- A call of a global method with the keywords of `fit` (parameter_fitting/__init__.py:115-117, 201-211 and
fit_functions.py:309-322).  `fit` never passes constraints; an unexpected keyword is a `TypeError`, and every
failure is reported as a `TypeError`.  The result is whether minimiser options and constraints
arrive at the method. -/
def runMethod (method : String) (minimizerOpts : Bool) (_constraints : Bool) : Except PyErr (Bool × Bool) :=
  match methodTable.lookup method with
  | none => .error .typeError
  | some (takesMin, _) => if minimizerOpts && !takesMin then .error .typeError else .ok (minimizerOpts, false)

/-! ### Output tables -/

/-- One entry of a result: a number or an array of numbers (`np.shape` of length 0 or 1).
Used in write_output.py:70-86. -/
inductive Cell (α : Type) where
  | num (x : α)
  | arr (l : List α)
deriving DecidableEq

/-- `np.size`. Used in write_output.py:70-86. -/
def Cell.size {α : Type} : Cell α → Nat
  | .num _ => 1
  | .arr l => l.length

/-- The array of a cell of an array column. Used in write_output.py:70-86. -/
def Cell.arr? {α : Type} : Cell α → Option (List α)
  | .num _ => none
  | .arr l => some l

/-- The number of a cell. Used in write_output.py:70-86. -/
def Cell.num? {α : Type} : Cell α → Option α
  | .num x => some x
  | .arr _ => none

/-- `mapM` on options: every element must be given. Used in write_output.py:70-86. -/
def allSome {α β : Type} (f : α → Option β) : List α → Option (List β)
  | [] => some []
  | a :: as => match f a with
    | none => none
    | some b => match allSome f as with
      | none => none
      | some bs => some (b :: bs)

/-- The i-th entry of each array. Used in write_output.py:70-86. -/
def nth {α : Type} (i : Nat) (rows : List (List α)) : List α := rows.filterMap (fun r => r[i]?)

/-- write_output.py:70-86: the columns of one property.  Arrays of different shapes cannot be stacked, and
numbers not concatenated or put beside arrays.  The values are a tuple or list of numbers or arrays; when they are an array of
objects that begins with a number, arrays among them are not refused (`Rows.columnsObj`). -/
def columnsOf {α : Type} (key : String) (values : List (Cell α)) : Except PyErr (List (String × List α)) :=
  match values with
  | [] => .error .indexError
  | v0 :: _ =>
    if 1 < v0.size then
      match allSome Cell.arr? values with
      | none => .error .valueError
      | some rows =>
        if rows.all (fun r => decide (r.length = v0.size)) then
          .ok ((List.range v0.size).map (fun (i : Nat) => (key ++ Nat.repr (i + 1), nth i rows)))
        else .error .valueError
    else match v0 with
      | .num _ => match allSome Cell.num? values with
        | none => .error .valueError
        | some xs => .ok [(key, xs)]
      | .arr _ => match allSome Cell.arr? values with
        | none => .error .valueError
        | some rows => .ok [(key, rows.flatten)]

/-- All columns, write_output.py:67-86. -/
def allColumns {α : Type} : List (String × List (Cell α)) → Except PyErr (List (String × List α))
  | [] => .ok []
  | (k, v) :: r => match columnsOf k v with
    | .error e => .error e
    | .ok c => match allColumns r with
      | .error e => .error e
      | .ok cs => .ok (c ++ cs)

/-- The comment line: the format with the calculation type is a statement of its own and has no effect
(write_output.py:63-65). -/
def comment (_calctype : String) : String := "# This data was generated in DESPASITO using the thermodynamic "

/-- write_output.py:53-61. -/
def unitOf (key : String) : Option String :=
  [("T", "K"), ("P", "Pa"), ("Psat", "Pa"), ("rhol", "mol/m^3"), ("rhov", "mol/m^3"),
    ("delta", "Pa^(1/2)")].lookup key

/-- The file: comment, column names with units, and rows. Used in write_output.py:32-102. -/
structure Table (α : Type) where
  comment : String
  names : List (String × Option String)
  rows : List (List α)
deriving DecidableEq

/-- write_output.py:32-102 `writeout_thermo_dict`, with the numbers unformatted. -/
def writeThermo {α : Type} (calctype : String) (out : List (String × List (Cell α))) : Except PyErr (Table α) :=
  match allColumns out with
  | .error e => .error e
  | .ok [] => .error .valueError
  | .ok (c :: cs) =>
    if cs.all (fun d => decide (d.2.length = c.2.length)) then
      .ok { comment := comment calctype
            names := (c :: cs).map (fun d => (d.1, unitOf d.1))
            rows := (List.range c.2.length).map (fun (i : Nat) => nth i ((c :: cs).map Prod.snd)) }
    else .error .valueError

/-- write_output.py:105-130 `writeout_fit_dict`: the lines with a name and a value. -/
def writeFit {α : Type} : List String → List α → Except PyErr (List (String × α))
  | [], _ => .ok []
  | _ :: _, [] => .error .indexError
  | n :: ns, x :: xs => match writeFit ns xs with
    | .error e => .error e
    | .ok r => .ok ((n, x) :: r)

end Verif.Dispatch
