import Mathlib.Data.List.Basic
import Mathlib.Order.Defs.LinearOrder

/-!
# `despasito/input_output/read_input.py:200-234` `process_bead_data`

Names are elements of a linear order (python strings ordered by code points), counts are numbers of
any type with a zero.
-/

namespace Verif.BeadData

variable {β ν : Type} [LinearOrder β] [Zero ν]

/-- read_input.py:221-225: names in order of first occurrence. -/
def collect (molecules : List (List (β × ν))) : List β :=
  molecules.foldl (fun acc m => m.foldl (fun acc p => if p.1 ∈ acc then acc else acc ++ [p.1]) acc) []

/-- read_input.py:221-226: the sorted list of names. -/
def beads (molecules : List (List (β × ν))) : List β :=
  (collect molecules).mergeSort (fun a b => decide (a ≤ b))

/-- read_input.py:231-233: one (name, count) pair is written to the columns of that name. -/
def writePair (names : List β) (row : List ν) (p : β × ν) : List ν :=
  List.zipWith (fun name old => if p.1 = name then p.2 else old) names row

/-- read_input.py:228-233: the row of one molecule. -/
def row (names : List β) (molecule : List (β × ν)) : List ν :=
  molecule.foldl (writePair names) (List.replicate names.length 0)

/-- read_input.py:200-234. -/
def processBeadData (molecules : List (List (β × ν))) : List β × List (List ν) :=
  (beads molecules, molecules.map (row (beads molecules)))

end Verif.BeadData
