import Verif.Model.DataClasses
import Verif.Model.DataFile
import Verif.Model.FitInput
import Verif.Model.Objective

/-!
# One evaluation of a data set: `_thermo_wrapper` and `objective` of the data classes

The constructors are in `Model/DataClasses.lean`, the table of the predictions in `Model/FitInput.lean` and the measures of
deviation in `Model/Objective.lean`; here is what joins them: which options the calculation receives, which of its outputs are
taken, and which column of the table is compared with which measured quantity.

The calculation is a parameter: from its name, the density options and the other options to its outputs, or an exception.
Simplifications: the parts of an objective are prepared before the first is evaluated, so that of two exceptions the other one
may be raised; the callers do not distinguish them (fit_functions.py:468-473).  Rows as weights, rows where numbers are
expected and densities given as rows end in an exception.
-/

namespace Verif.FitEval
open Verif Verif.Toolbox Verif.DataClasses Verif.DataFile Verif.FitInput Verif.Objective

variable {α β : Type}

/-- The options handed to the calculation, without the measured results.
TLVE.py:182-187, flash.py:161-166, liquid_density.py:159-164, saturation_properties.py:183-188, solubility_parameter.py:157-162. -/
def thermoOpts (b : Built α) : PyDict String (Arg α) :=
  (b.resultKeys ++ ["name", "parameters_guess"]).foldl PyDict.erase b.vals

/-- The outputs taken, in order; another calculation of TLVE data leaves `output` unassigned.
TLVE.py:189-203, flash.py:168-172, liquid_density.py:166-170, saturation_properties.py:190-195, solubility_parameter.py:164-169. -/
def outputNames (k : Kind) (ct : String) : Except PyErr (List String) :=
  match k with
  | .tlve => if ct = "bubble_pressure" then .ok ["P", "yi"] else if ct = "dew_pressure" then .ok ["P", "xi"]
      else .error .unboundLocal
  | .flash => .ok ["yi", "xi"]
  | .liquid => .ok ["rhol"]
  | .saturation => .ok ["Psat", "rhol", "rhov"]
  | .solubility => .ok ["delta", "rhol"]

/-- `thermo`: from the name of the calculation, the density options and the remaining options to the outputs.
Called in TLVE.py:191, 198, flash.py:169, liquid_density.py:167, saturation_properties.py:192, solubility_parameter.py:166. -/
abbrev Thermo (α β : Type) := String → PyDict String α → PyDict String (Arg α) → Except PyErr (PyDict String (Col β))

/-- `_thermo_wrapper`: every exception of the calculation, and a missing output, become a `ValueError`.
TLVE.py:171-203, flash.py:150-174, liquid_density.py:148-171, saturation_properties.py:172-197, solubility_parameter.py:146-171. -/
def predictions (k : Kind) (thermo : Thermo α β) (b : Built α) : Except PyErr (List (Col β)) :=
  match outputNames k b.calcType with
  | .error e => .error e
  | .ok names =>
    match thermo b.calcType b.density (thermoOpts b) with
    | .error _ => .error .valueError
    | .ok out =>
      match names.mapM out.get? with
      | none => .error .valueError
      | some l => .ok l

/-- The rows of `phase_list`; a single output is the array itself.
TLVE.py:217-218, flash.py:188-189, liquid_density.py:186-187, saturation_properties.py:212-213, solubility_parameter.py:186-187. -/
def table (k : Kind) (cols : List (Col β)) : Except PyErr (List (List β)) :=
  match k, cols with
  | .liquid, [.scalars l] => .ok [l]
  | .liquid, _ => .error .valueError
  | _, _ => reformat cols

/-- The numbers of an entry with one number for each state; an entry without axis cannot be indexed (fit_functions.py:577-583). Used in TLVE.py:223, saturation_properties.py:217-228. -/
def flat (a : Arg (Cell β)) : Except PyErr (List β) :=
  match a with
  | .scalar _ => .error .typeError
  | .arr cells => cells.mapM fun c => match c with
    | .num x => .ok x
    | .row _ => .error .typeError

/-- A row of the table of compositions; rows of different lengths cannot be transposed. Used in TLVE.py:229, 237, flash.py:194, 202. -/
def rowOf (w : Nat) : Cell β → Option (List β)
  | .num _ => none
  | .row l => if l.length = w then some l else none

/-- `np.transpose` of an entry with one composition for each state: one list for each component.  The numbers of an entry
that is no table are compared one by one, and a number has neither a length nor elements (fit_functions.py:564-583). TLVE.py:229, 237, flash.py:194, 202. -/
def byComponent (a : Arg (Cell β)) : Except PyErr (List (List β)) :=
  match a with
  | .scalar _ => .error .typeError
  | .arr [] => .ok []
  | .arr (.num _ :: _) => .error .typeError
  | .arr (.row r :: cells) =>
    match cells.mapM (rowOf r.length) with
    | none => .error .valueError
    | some rs => .ok ((List.range r.length).map fun j => column j (r :: rs))

variable {K : Type}

/-- The weights of a result. Used in TLVE.py:223, 232, 240, flash.py:198, 208. -/
def weightsOf (w : PyDict String (Arg (Cell (Ext K)))) (key : String) : Except PyErr (Weights K) :=
  match w.get? key with
  | none => .error .keyError
  | some (.scalar (.num x)) => .ok (.one x)
  | some (.scalar (.row l)) => .ok (.each l)
  | some (.arr l) => (flat (.arr l)).map .each

/-- One line of the table against the numbers under `key`, if there are any.
TLVE.py:222-225, liquid_density.py:190-192, saturation_properties.py:217-228, solubility_parameter.py:191-198. -/
def single (b : Built (Cell (Ext K))) (tab : List (List (Ext K))) (j : Nat) (key : String) :
    Except PyErr (Option (List (Series K))) :=
  match b.vals.get? key with
  | none => .ok none
  | some a =>
    match tab[j]?, flat a, weightsOf b.weights key with
    | some t, .ok r, .ok w => .ok (some [⟨t, r, w⟩])
    | none, _, _ => .error .indexError
    | _, .error e, _ => .error e
    | _, _, .error e => .error e

/-- The lines of the table from `off` on against the columns of the compositions under `key`. Used in TLVE.py:228-242, flash.py:193-210. -/
def pair (w : Weights K) (tab : List (List (Ext K))) : Nat → List (List (Ext K)) → Except PyErr (List (Series K))
  | _, [] => .ok []
  | j, r :: rs =>
    match tab[j]? with
    | none => .error .indexError
    | some t =>
      match pair w tab (j + 1) rs with
      | .error e => .error e
      | .ok l => .ok (⟨t, r, w⟩ :: l)

/-- The compositions under `key`, if there are any, component by component. TLVE.py:228-242, flash.py:193-210. -/
def components (b : Built (Cell (Ext K))) (tab : List (List (Ext K))) (off : Nat) (key : String) :
    Except PyErr (Option (List (Series K))) :=
  match b.vals.get? key with
  | none => .ok none
  | some a =>
    match byComponent a, weightsOf b.weights key with
    | .error e, _ => .error e
    | .ok _, .error e => .error e
    | .ok cols, .ok w =>
      match pair w tab off cols with
      | .error e => .error e
      | .ok l => .ok (some l)

/-- What each class compares; `comps` is `Eos.number_of_components`.
TLVE.py:220-242, flash.py:191-210, liquid_density.py:190-192, saturation_properties.py:216-228, solubility_parameter.py:190-198. -/
def comparisons (k : Kind) (comps : Nat) (b : Built (Cell (Ext K))) (tab : List (List (Ext K))) :
    Except PyErr (List (Option (List (Series K)))) :=
  match k with
  | .tlve => do
    let p ← single b tab 0 "Plist"
    let z ← if b.calcType = "bubble_pressure" then components b tab 1 "yilist"
      else if b.calcType = "dew_pressure" then components b tab 1 "xilist" else .ok none
    .ok [p, z]
  | .flash => do
    let y ← components b tab 0 "yilist"
    let x ← components b tab comps "xilist"
    .ok [y, x]
  | .liquid =>
    if b.vals.contains "rhol" then do
      let r ← single b tab 0 "rhol"
      .ok [r]
    else .error .keyError
  | .saturation => do
    let p ← single b tab 0 "Psat"
    let l ← single b tab 1 "rhol"
    let v ← single b tab 2 "rhov"
    .ok [p, l, v]
  | .solubility => do
    let d ← single b tab 0 "delta"
    let l ← single b tab 1 "rhol"
    .ok [d, l]

variable [Field K] [LinearOrder K]

/-- The `objective` methods.
TLVE.py:205-251, flash.py:176-219, liquid_density.py:173-199, saturation_properties.py:199-241, solubility_parameter.py:173-207. -/
def objective (ex : K → K) (o : FormOpts K) (k : Kind) (comps : Nat) (thermo : Thermo (Cell (Ext K)) (Ext K))
    (b : Built (Cell (Ext K))) : Except PyErr (Ext K) := do
  let cols ← predictions k thermo b
  let tab ← table k cols
  let q ← comparisons k comps b tab
  dataObjective ex o q

end Verif.FitEval
