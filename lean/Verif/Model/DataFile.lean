import Verif.Basic.Py
import Verif.Model.Toolbox

/-!
# `despasito/input_output/read_input.py`: data files, data sets and files of keys and values

`np.genfromtxt`, `eval` and `float` are external and enter as parameters.  A table that
`np.genfromtxt` has read is given by its columns, in the order of the file, with the names it has
assigned.
-/

namespace Verif.DataFile
open Verif Verif.Toolbox

/-- An element along the first axis of an array: a number, or a row of a two-dimensional array.
Used in read_input.py:410. -/
inductive Cell (α : Type) where
  | num (a : α)
  | row (l : List α)
  deriving DecidableEq, Repr

/-- What `np.genfromtxt(..., names=True)` has read: the columns, in order, with their names.
Used in read_input.py:413-431. -/
abbrev Table (α : Type) := List (String × List α)

variable {α : Type}

/-- read_input.py:410 `data[name]`: `np.genfromtxt` squeezes what it has read, so that the column of
a table with a single row is an array without axes, which every later function treats as a number. -/
def field : List α → Arg (Cell α)
  | [a] => .scalar (.num a)
  | l => .arr (l.map .num)

/-- `np.transpose(np.array([np.array(x) for x in cols]))` at read_input.py:434-440, for columns of `n` numbers
each.  Arrays without axes (`n = 1`) are stacked to a vector, which a transposition leaves as it is. -/
def stack (n : Nat) (cols : List (List α)) : Arg (Cell α) :=
  if n = 1 then .arr (cols.filterMap (fun c => (c[0]?).map .num))
  else .arr ((List.range n).map (fun r => .row (cols.filterMap (fun c => c[r]?))))

/-- The lists `xi`, `yi`, `zi` and `key_del` of read_input.py:413-414. -/
structure Sorted (α : Type) where
  xi : List (List α)
  yi : List (List α)
  zi : List (List α)
  del : List String

/-- `key.startswith(c)` for one letter. Used in read_input.py:416-428. -/
def startsWith (c : Char) (key : String) : Bool := [c].isPrefixOf key.toList

/-- read_input.py:416-428: the body of the loop over the columns.  The result of `key.replace` at line
418 is not used. -/
def sortStep (s : Sorted α) (p : String × List α) : Sorted α :=
  if startsWith 'x' p.1 then { s with xi := s.xi ++ [p.2], del := s.del ++ [p.1] }
  else if startsWith 'y' p.1 then { s with yi := s.yi ++ [p.2], del := s.del ++ [p.1] }
  else if startsWith 'z' p.1 then { s with zi := s.zi ++ [p.2], del := s.del ++ [p.1] }
  else s

/-- read_input.py:413-431 -/
def sortColumns (t : Table α) : Sorted α := t.foldl sortStep ⟨[], [], [], []⟩

/-- `if xi: file_dict["xi"] = …` at read_input.py:433-440. -/
def addStack (n : Nat) (name : String) (cols : List (List α)) (d : PyDict String (Arg (Cell α))) :
    PyDict String (Arg (Cell α)) :=
  if cols.isEmpty then d else d.set name (stack n cols)

/-- read_input.py:410-442: the dictionary made of a table with `n` rows. -/
def ofTable (n : Nat) (t : Table α) : PyDict String (Arg (Cell α)) :=
  let s := sortColumns t
  let d := s.del.foldl (fun acc k => acc.erase k) ⟨t.map (fun p => (p.1, field p.2))⟩
  addStack n "zi" s.zi (addStack n "yi" s.yi (addStack n "xi" s.xi d))

/-- read_input.py:385-442 `process_exp_data_file`: any exception while reading becomes a
`ValueError`. -/
def expDataFile (genfromtxt : String → Except PyErr (Nat × Table α)) (fname : String) :
    Except PyErr (PyDict String (Arg (Cell α))) :=
  match genfromtxt fname with
  | .error _ => .error .valueError
  | .ok (n, t) => .ok (ofTable n t)

section DataSet
variable {ν : Type}

/-- read_input.py:366-380: one entry of a data set.  `file` is `process_exp_data_file`, `beads` turns the
value of `bead_configuration` into the dictionary with `beads` and `molecular_composition`. -/
def dataStep (file : ν → Except PyErr (PyDict String ν)) (beads : ν → Except PyErr ν)
    (d : PyDict String ν) (p : String × ν) : Except PyErr (PyDict String ν) :=
  if p.1 = "data_class_type" then .ok (d.set "data_class_type" p.2)
  else if p.1 = "file" then
    match file p.2 with
    | .error e => .error e
    | .ok f => .ok (d.update f)
  else if p.1 = "bead_configuration" then
    match beads p.2 with
    | .error e => .error e
    | .ok b => .ok (d.set "eos_dict" b)
  else .ok (d.set p.1 p.2)

/-- read_input.py:366-380: the loop over the entries; an exception ends it. -/
def dataLoop (file : ν → Except PyErr (PyDict String ν)) (beads : ν → Except PyErr ν) :
    PyDict String ν → List (String × ν) → Except PyErr (PyDict String ν)
  | d, [] => .ok d
  | d, p :: l => match dataStep file beads d p with
    | .error e => .error e
    | .ok d' => dataLoop file beads d' l

/-- read_input.py:331-382 `process_exp_data` -/
def expData (file : ν → Except PyErr (PyDict String ν)) (beads : ν → Except PyErr ν)
    (input : PyDict String ν) : Except PyErr (PyDict String ν) :=
  dataLoop file beads PyDict.empty input.entries

end DataSet

section Text
variable {ν : Type}

/-- `line.split(delimiter)` for a delimiter of one character. Used in read_input.py:185-195. -/
def split (delim : Char) : List Char → List (List Char)
  | [] => [[]]
  | c :: r => match split delim r with
    | [] => [[]]
    | w :: ws => if c = delim then [] :: w :: ws else (c :: w) :: ws

/-- read_input.py:191-195: a value that cannot be evaluated.  The test looks at the second character of
the line, not of the value.  Simplification: `isdigit` is restricted to the digits of ASCII. -/
def fallback (text : List Char → ν) (float : List Char → Except PyErr ν) (line value : List Char) :
    Except PyErr ν :=
  match line[1]? with
  | none => .error .indexError
  | some c => if c.isDigit then float value else .ok (text value)

/-- read_input.py:185-195: one line.  The result of `line.rstrip()` is not used.  `eval` gives `none` when
the evaluation raises an exception. -/
def lineStep (delim : Char) (eval : List Char → Option ν) (text : List Char → ν)
    (float : List Char → Except PyErr ν) (d : PyDict (List Char) ν) (line : List Char) :
    Except PyErr (PyDict (List Char) ν) :=
  match split delim line with
  | [k, v] => match eval v with
    | some a => .ok (d.set k a)
    | none => match fallback text float line v with
      | .error e => .error e
      | .ok a => .ok (d.set k a)
  | _ => .ok d

/-- read_input.py:163-197 `file2paramdict`, for the lines of the file (each with its line end). -/
def fileDict (delim : Char) (eval : List Char → Option ν) (text : List Char → ν)
    (float : List Char → Except PyErr ν) :
    PyDict (List Char) ν → List (List Char) → Except PyErr (PyDict (List Char) ν)
  | d, [] => .ok d
  | d, l :: ls => match lineStep delim eval text float d l with
    | .error e => .error e
    | .ok d' => fileDict delim eval text float d' ls

end Text

end Verif.DataFile
