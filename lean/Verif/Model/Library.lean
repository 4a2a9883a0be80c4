import Verif.Basic.Py

/-!
# `input_output/write_output.py:12-29`: exporting a library of parameters

Python's `sorted` is stable: entries with equal keys keep their order.

Simplifications: a value is either a dictionary of values or something else, of which it only matters whether `json` can write
it; deeper levels are part of the values.  What is in the file is the library in the order in which it is written, and not the
text.  The file can be opened, and is closed when the function is left.
-/

namespace Verif.Library
open Verif

variable {ν : Type}

/-- One entry of the library: the parameters of a group, or something that is no dictionary. Used in write_output.py:26. -/
inductive Entry (ν : Type) where
  | group (d : PyDict String ν)
  | other (v : ν)
deriving DecidableEq

/-- What is found at the name of the file: nothing, a library, or the part of one that was written before an exception.
Used in write_output.py:28-29. -/
inductive File (ν : Type) where
  | absent
  | library (entries : List (String × Entry ν))
  | cut
deriving DecidableEq

/-- `sorted(…, key=…)`: from the end, each item is put before the first one that is not smaller, so that equal ones keep their
order. Used in write_output.py:27. -/
def insertBy (key : String → String) (p : String × ν) : List (String × ν) → List (String × ν)
  | [] => [p]
  | q :: l => if key p.1 ≤ key q.1 then p :: q :: l else q :: insertBy key p l

/-- `sorted(list(d.items()), key=lambda tup: tup[0].lower())`; `lower` is the method of strings. write_output.py:27. -/
def sortBy (lower : String → String) : List (String × ν) → List (String × ν)
  | [] => []
  | p :: l => insertBy lower p (sortBy lower l)

/-- write_output.py:26-27: the loop over the entries. What is not a dictionary has no `items`; the entries before it are already
replaced. -/
def sortEntries (lower : String → String) : List (String × Entry ν) → Option PyErr × List (String × Entry ν)
  | [] => (none, [])
  | (n, .other v) :: l => (some .attributeError, (n, .other v) :: l)
  | (n, .group d) :: l =>
    let r := sortEntries lower l
    (r.1, (n, .group ⟨sortBy lower d.entries⟩) :: r.2)

/-- Whether `json` can write an entry. Used in write_output.py:29. -/
def Entry.writable (ok : ν → Bool) : Entry ν → Bool
  | .group d => d.entries.all fun p => ok p.2
  | .other v => ok v

/-- write_output.py:12-29 `write_EOSparameters`: the exception, the library that the caller has afterwards, and the file. The file
is emptied when it is opened, and `json.dump` writes piece by piece. -/
def write (lower : String → String) (ok : ν → Bool) (lib : List (String × Entry ν)) (old : File ν) :
    Option PyErr × List (String × Entry ν) × File ν :=
  match sortEntries lower lib with
  | (some e, l) => (some e, l, old)
  | (none, l) =>
    if l.all fun p => p.2.writable ok then (none, l, .library l) else (some .typeError, l, .cut)

end Verif.Library
