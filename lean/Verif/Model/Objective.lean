import Verif.Basic.Py
import Verif.Basic.Ext

/-!
# Objective functions of parameter fitting

`obj_function_form` and `compute_obj` of parameter_fitting/fit_functions.py, and the `objective`
methods of parameter_fitting/data_classes.  Numbers are numpy scalars `Ext K` over an ordered field;
rounding is not modelled.  `np.exp` of a number is a parameter `ex`.
-/

namespace Verif.Objective
open Verif

variable {K : Type} [Field K] [LinearOrder K]

/-- `np.isnan`. Used in fit_functions.py:576-582. -/
def isNan : Ext K → Bool
  | .nan => true
  | _ => false

/-- `np.abs`. Used in fit_functions.py:598, 602. -/
def abs : Ext K → Ext K
  | .fin a => .fin (if a < 0 then -a else a)
  | .pinf => .pinf
  | .ninf => .pinf
  | .nan => .nan

/-- `np.exp`, given its values at numbers. Used in fit_functions.py:598, 602. -/
def exp (ex : K → K) : Ext K → Ext K
  | .fin a => .fin (ex a)
  | .pinf => .pinf
  | .ninf => .fin 0
  | .nan => .nan

/-- `np.sum`. Used in fit_functions.py:590-605. -/
def sum (l : List (Ext K)) : Ext K := l.foldr Ext.add (.fin 0)

/-- `np.nansum`: NaN counts as zero. Used in TLVE.py:246-251, flash.py:214-219, saturation_properties.py:236-241. -/
def nansum (l : List (Ext K)) : Ext K := sum (l.map fun a => if isNan a then .fin 0 else a)

/-- `np.mean`; NaN (and a warning) for an empty array. Used in fit_functions.py:590-605. -/
def mean (l : List (Ext K)) : Ext K := Ext.div (sum l) (.fin (l.length : K))

/-- `np.min` of an array without NaN: an empty array raises. Used in fit_functions.py:590-605. -/
def amin : List (Ext K) → Except PyErr (Ext K)
  | [] => .error .valueError
  | a :: l => .ok (Ext.pyMin a l)

/-- `weights`: one number or one number per point. Used in fit_functions.py:583-588. -/
inductive Weights (K : Type) where
  | one (w : Ext K)
  | each (w : List (Ext K))

/-- `np.size(weights)`. Used in fit_functions.py:511-624. -/
def Weights.size : Weights K → Nat
  | .one _ => 1
  | .each w => w.length

/-- fit_functions.py:578: the relative deviation of one point. -/
def dev (p : Ext K × Ext K) : Ext K := Ext.div (Ext.sub p.1 p.2) p.2

/-- fit_functions.py:576-582: the deviations that are not NaN. -/
def devs (test ref : List (Ext K)) : List (Ext K) :=
  ((test.zip ref).map dev).filter fun d => !isNan d

/-- `weights[i]`. Used in fit_functions.py:583-588. -/
def weightAt (w : List (Ext K)) (i : Nat) : Except PyErr (Ext K) :=
  match w[i]? with
  | some x => .ok x
  | none => .error .indexError

/-- fit_functions.py:583-588: the weight that goes with each of these deviations. -/
def devWeights (test ref : List (Ext K)) : Weights K → Except PyErr (List (Ext K))
  | .one w => .ok ((devs test ref).map fun _ => w)
  | .each w =>
    ((test.zip ref).zipIdx.filter fun p => !isNan (dev p.1)).mapM fun p =>
      weightAt w p.2

/-- fit_functions.py:598, 602: the Boltzmann factor of each deviation. -/
def boltz (ex : K → K) (m : Ext K) (d : Ext K) : Ext K := exp ex (Ext.div (Ext.sub m d) (abs m))

/-- fit_functions.py:590-605: the measure of deviation; `none` when the name is unknown, in which case
`obj_value` is not assigned. -/
def deviation (ex : K → K) (method : String) (d w : List (Ext K)) : Except PyErr (Option (Ext K)) :=
  if method = "average-squared-deviation" then
    .ok (some (mean (d.zipWith (fun a b => Ext.mul (Ext.mul a a) b) w)))
  else if method = "sum-squared-deviation" then
    .ok (some (sum (d.zipWith (fun a b => Ext.mul (Ext.mul a a) b) w)))
  else if method = "sum-squared-deviation-boltz" then
    match amin d with
    | .error e => .error e
    | .ok m =>
      .ok (some (sum (d.zipWith (fun a b => Ext.mul (Ext.mul (Ext.mul a a) b) (boltz ex m a)) w)))
  else if method = "sum-deviation-boltz" then
    match amin d with
    | .error e => .error e
    | .ok m => .ok (some (sum (d.zipWith (fun a b => Ext.mul (Ext.mul a b) (boltz ex m a)) w)))
  else if method = "percent-absolute-average-deviation" then
    .ok (some (Ext.mul (mean (d.zipWith (fun a b => Ext.mul (abs a) b) w)) (.fin 100)))
  else .ok none

/-- fit_functions.py:607-622: no comparable point gives NaN; too many missing points are penalised.
Reading or increasing an unassigned `obj_value` raises. -/
def finish (nTest nDev : Nat) (nanNumber nanRatio : K) (v : Option (Ext K)) : Except PyErr (Ext K) :=
  let v := if nDev = 0 then some .nan else v
  match v with
  | none => .error .unboundLocal
  | some x =>
    if nTest ≠ nDev ∧ 1 - (nDev : K) / (nTest : K) > nanRatio then
      .ok (Ext.add x (.fin (((nTest - nDev : Nat) : K) * nanNumber)))
    else .ok x

/-- fit_functions.py:511-624 `obj_function_form`, one-dimensional data. -/
def objForm (ex : K → K) (test ref : List (Ext K)) (w : Weights K) (method : String)
    (nanNumber nanRatio : K) : Except PyErr (Ext K) :=
  if ref.length ≠ test.length then .error .valueError
  else if 1 < w.size ∧ w.size ≠ test.length then .error .valueError
  else
    match devWeights test ref w with
    | .error e => .error e
    | .ok ws =>
      match deviation ex method (devs test ref) ws with
      | .error e => .error e
      | .ok v => finish test.length (devs test ref).length nanNumber nanRatio v

/-! ## Data sets -/

/-- `np.isnan(x) or x == 0.0`. Used in TLVE.py:246-251, flash.py:214-219, saturation_properties.py:236-241. -/
def nanOrZero : Ext K → Bool
  | .nan => true
  | .fin a => decide (a = 0)
  | _ => false

/-- TLVE.py:246-251, flash.py:214-219, saturation_properties.py:236-241,
solubility_parameter.py:202-207, liquid_density.py:196-199: from the parts of the objective of one
data set to its total.  The liquid density has one part, for which `np.nansum` is the part itself. -/
def total (parts : List (Ext K)) : Ext K := if parts.all nanOrZero then .pinf else nansum parts

/-- One measured quantity of a data set: predictions, reference data, weights.
Used in saturation_properties.py:216-228, TLVE.py:228-242, flash.py:193-210. -/
structure Series (K : Type) where
  test : List (Ext K)
  ref : List (Ext K)
  w : Weights K

/-- The options of a data set (interface.py:74-83) for `obj_function_form`. -/
structure FormOpts (K : Type) where
  method : String
  nanNumber : K
  nanRatio : K

/-- `obj_function_form` on one series of predictions with its weights, saturation_properties.py:216-228,
TLVE.py:228-242, flash.py:193-210. -/
def Series.form (ex : K → K) (o : FormOpts K) (s : Series K) : Except PyErr (Ext K) :=
  objForm ex s.test s.ref s.w o.method o.nanNumber o.nanRatio

/-- A part of the objective: zero when the quantity is not in the data set, the sum of its columns
otherwise (saturation_properties.py:216-228 with one column each; TLVE.py:228-242, flash.py:193-210
with one column per component). -/
def part (ex : K → K) (o : FormOpts K) : Option (List (Series K)) → Except PyErr (Ext K)
  | none => .ok (.fin 0)
  | some cols => cols.foldlM (fun acc s => (s.form ex o).map (Ext.add acc)) (.fin 0)

/-- The `objective` methods of the data classes, given the predictions; `thermo` has succeeded.
TLVE.py:205-251, flash.py:176-219, liquid_density.py:173-199, saturation_properties.py:199-241, solubility_parameter.py:173-207. -/
def dataObjective (ex : K → K) (o : FormOpts K) (quantities : List (Option (List (Series K)))) :
    Except PyErr (Ext K) :=
  match quantities.mapM (part ex o) with
  | .error e => .error e
  | .ok ps => .ok (total ps)

/-! ## The total objective -/

/-- fit_functions.py:478-486: the penalty of one parameter. -/
def penalty (p : Ext K) (b : Ext K × Ext K) : Ext K :=
  let pow8 (x : Ext K) : Ext K := let y := Ext.mul x x; let z := Ext.mul y y; Ext.mul z z
  if Ext.lt p b.1 then pow8 (Ext.mul (.fin 1000) (Ext.sub p b.1))
  else if Ext.lt b.2 p then pow8 (Ext.mul (.fin 1000) (Ext.sub p b.2))
  else .fin 0

/-- fit_functions.py:478-486: the loop over the parameters. -/
def addPenalties : List (Ext K) → List (Ext K × Ext K) → Ext K → Except PyErr (Ext K)
  | [], _, t => .ok t
  | _ :: _, [], _ => .error .indexError
  | p :: ps, b :: bs, t => addPenalties ps bs (Ext.add t (penalty p b))

/-- fit_functions.py:468-473: what is recorded for one data set, infinity when it raises. -/
def seen : Except PyErr (Ext K) → Ext K
  | .ok v => v
  | .error _ => .pinf

/-- fit_functions.py:409-508 `compute_obj`.  `data` gives, for the parameters, what updating and
evaluating each data set gives or raises.  With fewer values than names the message at 458-462 cannot be written. -/
def computeObj (params : List (Ext K)) (nNames : Nat) (data : List (Ext K) → List (Except PyErr (Ext K)))
    (bounds : List (Ext K × Ext K)) (frozen : Option (List (Ext K))) : Except PyErr (Ext K) :=
  let all : Except PyErr (List (Ext K)) :=
    if params.length ≠ nNames then
      match frozen with
      | some f => .ok (f ++ params)
      | none => .error .valueError
    else .ok params
  match all with
  | .error e => .error e
  | .ok ps =>
    if ps.length < nNames then .error .indexError
    else if ps.any isNan then .ok .pinf
    else
      let objs := (data ps).map seen
      match addPenalties ps bounds (nansum objs) with
      | .error e => .error e
      | .ok t => .ok (if t = .fin 0 ∧ isNan (sum objs) then .pinf else t)

end Verif.Objective
