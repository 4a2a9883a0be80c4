import Verif.Basic.Py

/-!
# `despasito/input_output/read_input.py`: splitting an input file

Values of the JSON file are of an arbitrary type `ν`.  Reading of further files, joining of paths
and the molecule table (`process_bead_data`, see `Verif.Model.BeadData`) are parameters (`Ext`).
-/

namespace Verif.ReadInput
open Verif

/-- The parts of `extract_calc_data` that only act on single values. Used in read_input.py:12-31. -/
structure Ext (ν : Type) where
  /-- `os.path.join(path, ·)`, read_input.py:24, 27. -/
  join : ν → ν
  /-- read_input.py:29-31: joins the path to the `file` entry of a value that is a dictionary with
  such an entry, other values are unchanged. -/
  fixFile : ν → ν
  /-- `process_bead_data`, both results. -/
  beadData : ν → Except PyErr (ν × ν)
  /-- `json_to_dict`, read_input.py:34-53. -/
  load : ν → Except PyErr ν

/-- `s.split("_")` on the characters of a string. Used in read_input.py:123. -/
def splitUnder : List Char → List (List Char)
  | [] => [[]]
  | c :: r =>
    if c = '_' then [] :: splitUnder r
    else match splitUnder r with
      | [] => [[c]]
      | h :: t => (c :: h) :: t

/-- `"_".join(l)`. Used in read_input.py:123. -/
def joinUnder : List (List Char) → List Char
  | [] => []
  | [a] => a
  | a :: b :: r => a ++ '_' :: joinUnder (b :: r)

/-- `key.startswith("eos_")`. Used in read_input.py:121-128. -/
def isEosKey (k : String) : Bool := "eos_".toList.isPrefixOf k.toList

/-- read_input.py:123: `"_".join(key.split("_")[1:])`. -/
def newKey (k : String) : String := String.ofList (joinUnder (splitUnder k.toList).tail)

/-- read_input.py:120. -/
def eosDictKeys : List String := ["bead_configuration", "EOSgroup", "EOScross", "output_file"]

/-- read_input.py:130. -/
def accelKeys : List String := ["numba", "cython", "python"]

variable {ν : Type}

/-- read_input.py:12-31 `append_data_file_path`. -/
def appendPath (x : Ext ν) (d : PyDict String ν) : PyDict String ν :=
  ⟨d.entries.map fun p =>
    (p.1, x.fixFile (if p.1 = "EOSgroup" ∨ p.1 = "EOScross" then x.join p.2 else p.2))⟩

/-- read_input.py:121-128: one step of the routing loop. -/
def route (st : PyDict String ν × PyDict String ν) (p : String × ν) :
    PyDict String ν × PyDict String ν :=
  if isEosKey p.1 then (st.1.set (newKey p.1) p.2, st.2)
  else if p.1 = "eos" then (st.1.set "eos" p.2, st.2)
  else if p.1 ∈ eosDictKeys then st
  else (st.1, st.2.set p.1 p.2)

/-- read_input.py:130-133: one step of the loop moving the acceleration switches. -/
def moveAccel (st : PyDict String ν × PyDict String ν) (k : String) :
    PyDict String ν × PyDict String ν :=
  match st.2.get? k with
  | some v => (st.1.set k v, st.2.erase k)
  | none => st

/-- read_input.py:103-114: the dictionary for the equation of state before routing. -/
def eosBase (x : Ext ν) (d : PyDict String ν) : Except PyErr (PyDict String ν) :=
  let base : Except PyErr (PyDict String ν) :=
    match d.get? "bead_configuration" with
    | some v =>
      match x.beadData v with
      | .error e => .error e
      | .ok (b, m) => .ok ((PyDict.empty.set "beads" b).set "molecular_composition" m)
    | none => if d.contains "optimization_parameters" then .ok PyDict.empty else .error .valueError
  match base with
  | .error e => .error e
  | .ok e0 =>
    match d.get? "EOSgroup" with
    | none => .error .keyError
    | some g =>
      match x.load g with
      | .error e => .error e
      | .ok lib =>
        let e1 := e0.set "bead_library" lib
        match d.get? "EOScross" with
        | none => .ok e1
        | some c =>
          match x.load c with
          | .error e => .error e
          | .ok cl => .ok (e1.set "cross_library" cl)

/-- read_input.py:56-133 `extract_calc_data` up to the treatment of fitting inputs; `kwargs` are the
extra keyword arguments. Result: EOS dictionary, calculation dictionary, output file. -/
def extract (x : Ext ν) (input kwargs : PyDict String ν) :
    Except PyErr (PyDict String ν × PyDict String ν × Option ν) :=
  let d := appendPath x input
  match eosBase x d with
  | .error e => .error e
  | .ok e1 =>
    let st := accelKeys.foldl moveAccel (d.entries.foldl route (e1, kwargs))
    .ok (st.1, st.2, d.get? "output_file")

/-! ## Fitting inputs -/

/-- A data set of a fitting input: its own EOS dictionary, if any, and the rest. Used in read_input.py:142-147. -/
structure ExpData (ν : Type) where
  eosDict : Option (PyDict String ν)
  rest : ν

/-- read_input.py:142-147: fill missing EOS settings of one data set from the common ones. -/
def fillEos (common : PyDict String ν) (e : ExpData ν) : ExpData ν :=
  { e with eosDict := some (common.entries.foldl
      (fun acc p => if acc.contains p.1 then acc else acc.set p.1 p.2)
      (e.eosDict.getD PyDict.empty)) }

/-- read_input.py:311-328 `process_param_fit_inputs`: `asData` recognises a dictionary with
`data_class_type` and converts it (`process_exp_data`); `fitKeys` says whether the value of
`optimization_parameters` has the keys `fit_bead` and `fit_parameter_names`.
Simplification: an entry that is itself called `exp_data` is not considered, and `test1` at line 318
is therefore true whenever `optimization_parameters` is present; line 319 raises `KeyError` otherwise. -/
def paramFitInputs (asData : ν → Option (Except PyErr (ExpData ν))) (fitKeys : ν → Bool)
    (thermo : PyDict String ν) :
    Except PyErr (PyDict String (ExpData ν) × PyDict String ν) :=
  let step := fun (st : Except PyErr (PyDict String (ExpData ν) × PyDict String ν))
      (p : String × ν) =>
    match st with
    | .error e => .error e
    | .ok (ex, rest) =>
      match asData p.2 with
      | some (.error e) => .error e
      | some (.ok d) => .ok (ex.set p.1 d, rest)
      | none => .ok (ex, rest.set p.1 p.2)
  match thermo.entries.foldl step (.ok (PyDict.empty, PyDict.empty)) with
  | .error e => .error e
  | .ok (ex, rest) =>
    match rest.get? "optimization_parameters" with
    | none => .error .keyError
    | some v => if fitKeys v then .ok (ex, rest) else .error .valueError

end Verif.ReadInput
