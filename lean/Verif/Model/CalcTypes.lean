import Verif.Model.Toolbox
import Verif.Model.Parallel
import Mathlib.Algebra.Field.Rat

/-!
# `despasito/thermodynamics/calculation_types.py`: from user input to points, and the guarded job run
at each point

Numbers are rationals, NaN is `none`.  The thermodynamic calculations that the jobs call
(`calc.calc_flash`, …) are parameters: any function of the point that returns or raises.  Options
that are handed over unchanged (`opts`) are part of that parameter, except where the code changes
them.  The bubble- and dew-point jobs, which read and change shared state, are modelled in
`Verif.Model.BubbleDew`.  Logging is not modelled.
-/

namespace Verif.CalcTypes
open Verif Verif.Toolbox Verif.Parallel

/-- A number as numpy has it: `none` is NaN. Used in calculation_types.py:771-791. -/
abbrev Num := Option ℚ

/-- The keyword arguments that are processed by the calculation types. Used in calculation_types.py:90. -/
inductive Key where
  | Tlist | xilist | yilist | Plist | Pguess | Pmin | Pmax
  deriving DecidableEq, Repr

/-- One row of an input array: a number, or a composition. Used in calculation_types.py:84-85. -/
inductive Row where
  | num (v : Num)
  | comp (l : List Num)
  deriving DecidableEq, Repr

/-- The processed keyword arguments (`sys_dict`) of a call. Used in calculation_types.py:629. -/
abbrev Sys := PyDict Key (Arg Row)

/-- despasito/thermodynamics constants used as defaults: `standard_temperature` 298.15 K.
Used in calculation_types.py:624-651. -/
def stdT : ℚ := 29815 / 100

/-- `standard_pressure` 101325 Pa. Used in calculation_types.py:624-651. -/
def stdP : ℚ := 101325

/-- `np.array([l], float)` for a flat list of numbers; a composition inside it makes the array
ragged, a `ValueError`. Used in calculation_types.py:84-85. -/
def flatten : List Row → Except PyErr (List Num)
  | [] => .ok []
  | .num v :: r =>
    match flatten r with
    | .error e => .error e
    | .ok l => .ok (v :: l)
  | .comp _ :: _ => .error .valueError

/-- calculation_types.py:84-85 (also 231-232, 397-400, 730-731, 841-842, 965-966, 1090-1091,
1238-1239): a composition list whose first entry is a number is taken as one composition.  Indexing
a number is a `TypeError`, indexing an empty list an `IndexError`. -/
def wrapOne : Arg Row → Except PyErr (Arg Row)
  | .scalar _ => .error .typeError
  | .arr [] => .error .indexError
  | .arr (.comp l :: r) => .ok (.arr (.comp l :: r))
  | .arr (.num v :: r) =>
    match flatten (.num v :: r) with
    | .error e => .error e
    | .ok l => .ok (.arr [.comp l])

/-- The same applied to the entry of `sys_dict` when it is present. Used in calculation_types.py:730-760. -/
def wrapComp (sys : Sys) (k : Key) : Except PyErr Sys :=
  match sys.get? k with
  | none => .ok sys
  | some a =>
    match wrapOne a with
    | .error e => .error e
    | .ok a' => .ok (sys.set k a')

/-- The shape of a row: that of a number, or the number of fractions of a composition. Used in general_toolbox.py:342-349. -/
def Row.size : Row → Option Nat
  | .num _ => none
  | .comp l => some l.length

/-- general_toolbox.py:342-349: whether `np.array(·, float)` accepts the rows, which must all have the same shape. -/
def even : List Row → Bool
  | [] => true
  | r :: rs => rs.all fun s => s.size == r.size

/-- general_toolbox.py:297-351 `check_length_dict` of rows: in addition to the lengths, the conversion to arrays of numbers
raises `ValueError` for rows of different shapes.  Both exceptions are the same, so that the order of the checks does not
matter. -/
def checkRows (d : Sys) (keys : List Key) (lx : Option Nat) : Except PyErr (PyDict Key (List Row)) :=
  match checkLengthDict d keys lx with
  | .error e => .error e
  | .ok th => if th.entries.all fun p => even p.2 then .ok th else .error .valueError

/-- The dictionary returned by `check_length_dict` seen as a dictionary of arrays.
Used in calculation_types.py:624-651. -/
def asArgs (d : PyDict Key (List Row)) : Sys := ⟨d.entries.map fun p => (p.1, .arr p.2)⟩

/-- `npoints = len(thermo_dict[list(thermo_dict.keys())[0]])`, e.g. calculation_types.py:90. -/
def firstLen (d : PyDict Key (List Row)) : Except PyErr Nat :=
  match d.entries with
  | [] => .error .indexError
  | p :: _ => .ok p.2.length

/-- `thermo_dict[key][i]`. Used in calculation_types.py:464-479. -/
def at_ (d : Sys) (k : Key) (i : Nat) : Except PyErr Row :=
  match d.get? k with
  | none => .error .keyError
  | some (.scalar _) => .error .typeError
  | some (.arr l) =>
    match l[i]? with
    | none => .error .indexError
    | some r => .ok r

/-- `[tuple(thermo_dict[k][i] for k in keys) for i in range(npoints)]`. Used in calculation_types.py:629. -/
def points (d : Sys) (keys : List Key) (n : Nat) : Except PyErr (List (List Row)) :=
  runChunk (fun i => runChunk (fun k => at_ d k i) keys) (List.range n)

/-- `thermo_dict.update(gtb.set_defaults(thermo_dict, keys, defaults, lx=npoints))`, e.g.
calculation_types.py:629. -/
def withDefaults (d : Sys) (keys : List Key) (vals : List (Arg Row)) (n : Nat) : Except PyErr Sys :=
  match setDefaults d (.many keys) (.many vals) (some n) with
  | .error e => .error e
  | .ok out => .ok (d.update out)

/-! ## Building the points -/

/-- calculation_types.py:624-651 `flash`: the points `(T, P)`. -/
def flashPoints (ncomp : Nat) (sys : Sys) : Except PyErr (List (List Row)) := do
  let th ← checkRows sys [.Tlist, .Plist] none
  let n ← firstLen th
  let d ← withDefaults (asArgs th) [.Tlist, .Plist]
    [.scalar (.num (some stdT)), .scalar (.num (some stdP))] n
  if ncomp ≠ 2 then throw .valueError
  points d [.Tlist, .Plist] n

/-- `np.array([[1.0] for x in range(npoints)])`. Used in calculation_types.py:730-760. -/
def onesDefault (n : Nat) : Arg Row := .arr (List.replicate n (.comp [some 1]))

/-- calculation_types.py:730-760 `saturation_properties`: the points `(T, xi)`. -/
def saturationPoints (sys0 : Sys) : Except PyErr (List (List Row)) := do
  let sys ← wrapComp sys0 .xilist
  let th0 ← checkRows sys [.Tlist, .xilist] none
  let th := if th0.contains .Tlist then th0 else th0.set .Tlist [.num (some stdT)]
  let n ← firstLen th
  let d ← withDefaults (asArgs th) [.Tlist, .xilist]
    [.scalar (.num (some stdT)), onesDefault n] n
  points d [.Tlist, .xilist] n

/-- calculation_types.py:841-881 `liquid_properties` with `comp = xilist`, and 965-1005
`vapor_properties` with `comp = yilist`: the points `(P, T, composition)`. -/
def propertyPoints (comp : Key) (ncomp : Nat) (sys0 : Sys) : Except PyErr (List (List Row)) := do
  let sys ← wrapComp sys0 comp
  let th ← checkRows sys [.Tlist, comp, .Plist] none
  let n ← firstLen th
  if !th.contains comp && decide (1 < ncomp) then throw .valueError
  let d ← withDefaults (asArgs th) [.Tlist, comp, .Plist]
    [.scalar (.num (some stdT)), onesDefault n, .scalar (.num (some stdP))] n
  points d [.Plist, .Tlist, comp] n

/-- calculation_types.py:1090-1135 `solubility_parameter`: as `liquid_properties`, but `thermo_dict`
is only assigned when one of the keys is present (1095-1101). -/
def solubilityPoints (ncomp : Nat) (sys0 : Sys) : Except PyErr (List (List Row)) := do
  let sys ← wrapComp sys0 .xilist
  if [Key.Tlist, .xilist, .Plist].any sys.contains then
    let th ← checkRows sys [.Tlist, .xilist, .Plist] none
    let n ← firstLen th
    if !th.contains .xilist && decide (1 < ncomp) then throw .valueError
    let d ← withDefaults (asArgs th) [.Tlist, .xilist, .Plist]
      [.scalar (.num (some stdT)), onesDefault n, .scalar (.num (some stdP))] n
    points d [.Plist, .Tlist, .xilist] n
  else throw .unboundLocal

/-- calculation_types.py:1230-1231: the eleven default compositions of a binary mixture,
`np.linspace(0.01, 0.99, 11)`. -/
def verifyGrid : List Row :=
  (List.range 11).map fun (i : Nat) =>
    let x : ℚ := 1 / 100 + (i : ℚ) * (98 / 1000)
    .comp [some x, some (1 - x)]

/-- calculation_types.py:1228-1271 `verify_eos`: the points `(P, T, xi)`. -/
def verifyPoints (ncomp : Nat) (sys0 : Sys) : Except PyErr (List (List Row)) := do
  let sys ← (match sys0.get? .xilist with
    | none => if ncomp = 2 then .ok (sys0.set .xilist (.arr verifyGrid)) else .error .valueError
    | some _ => wrapComp sys0 .xilist)
  let th ← checkRows sys [.Tlist, .xilist, .Plist] none
  let n ← firstLen th
  let d ← withDefaults (asArgs th) [.Tlist, .Plist]
    [.scalar (.num (some stdT)), .scalar (.num (some stdP))] n
  points d [.Plist, .Tlist, .xilist] n

/-! ## The guarded job at one point -/

/-- One row of results. Used in calculation_types.py:671-691. -/
abbrev Out := List (Cell Num)

/-- `np.nan * np.ones(n)`. Used in calculation_types.py:671-691. -/
def nans (n : Nat) : Cell Num := .vec (List.replicate n none)

/-- A number, and the phase flag 3 ("neither is true"). Used in calculation_types.py:671-691. -/
def numCell (v : Num) : Cell Num := .scal v
/-- The flag 3 of calculation_types.py:671-691 and 899-915. -/
def flag3 : Cell Num := .scal (some 3)

/-- Result of `calc.calc_flash`: liquid and vapor composition, flags, objective.
Used in calculation_types.py:671-691. -/
structure FlashResult where
  xi : List Num
  flagl : Num
  yi : List Num
  flagv : Num
  obj : Num
  deriving DecidableEq

section
variable {α : Type}

/-- calculation_types.py:671-691 `_flash_wrapper`. -/
def flashJob (ncomp : Nat) (core : α → Except PyErr FlashResult) (x : α) : Except PyErr Out :=
  match core x with
  | .ok r => .ok [.vec r.xi, .vec r.yi, .scal r.flagv, .scal r.flagl, .scal r.obj]
  | .error _ => .ok [nans ncomp, nans ncomp, flag3, flag3, .scal none]

/-- calculation_types.py:771-791 `_saturation_properties_wrapper`; `core` returns `(Psat, rhol,
rhov)`. -/
def saturationJob (core : α → Except PyErr (Num × Num × Num)) (x : α) : Except PyErr Out :=
  match core x with
  | .ok (P, rl, rv) =>
    match P with
    | none => .ok [.scal none, .scal none, .scal none]
    | some p => .ok [.scal (some p), .scal rl, .scal rv]
  | .error _ => .ok [.scal none, .scal none, .scal none]

/-- calculation_types.py:899-915 `_liquid_properties_wrapper` and 1023-1039
`_vapor_properties_wrapper`; `core` returns `(phi, rho, flag)`. -/
def propertyJob (ncomp : Nat) (core : α → Except PyErr (List Num × Num × Num)) (x : α) :
    Except PyErr Out :=
  match core x with
  | .ok (phi, rho, flag) => .ok [.scal rho, .vec phi, .scal flag]
  | .error _ => .ok [.scal none, nans ncomp, flag3]

/-- calculation_types.py:1152-1168 `_solubility_parameter_wrapper`: the density, then the solubility
parameter from it. -/
def solubilityJob (dens : α → Except PyErr (Num × Num)) (solub : Num → α → Except PyErr Num)
    (x : α) : Except PyErr Out :=
  match (do let (rho, flag) ← dens x
            let delta ← solub rho x
            pure (rho, flag, delta) : Except PyErr (Num × Num × Num)) with
  | .ok (rho, flag, delta) => .ok [.scal rho, .scal flag, .scal delta]
  | .error _ => .ok [.scal none, flag3, .scal none]

/-- calculation_types.py:1319-1337 (and 1339-1354), one phase of `_verify_eos_wrapper`: nothing is
guarded.  `tests` returns the two residuals and the logarithms of the fugacity coefficients. -/
def verifyPhase (dens : α → Except PyErr (Num × Num))
    (tests : ℚ → α → Except PyErr (Num × Num × List Num)) (x : α) :
    Except PyErr (Cell Num × Cell Num × Cell Num × Cell Num) := do
  let (rho, flag) ← dens x
  match rho with
  | none => pure (.scal none, .scal none, .scal flag, .scal none)
  | some r =>
    let (r1, r2, logphi) ← tests r x
    pure (.scal r1, .scal r2, .scal flag, .vec logphi)

/-- calculation_types.py:1312-1365 `_verify_eos_wrapper`. -/
def verifyJob (densV densL : α → Except PyErr (Num × Num))
    (tests : ℚ → α → Except PyErr (Num × Num × List Num)) (x : α) : Except PyErr Out := do
  let (v1, v2, fv, pv) ← verifyPhase densV tests x
  let (l1, l2, fl, pl) ← verifyPhase densL tests x
  pure [v1, v2, fv, pv, l1, l2, fl, pl]

end

/-! ## Activity coefficients -/

/-- The modes of calculation_types.py:407-425. -/
inductive Mode where
  | flash | dewPoint | bubblePoint | standard
  deriving DecidableEq, Repr

/-- calculation_types.py:407-428: the mode from what was supplied. -/
def mode? (hasX hasY hasP : Bool) : Option Mode :=
  if !hasX then
    if !hasY then
      if hasP then some .flash else none
    else some .dewPoint
  else if !hasY then some .bubblePoint
  else some .standard

/-- One point of the activity-coefficient calculation: temperature, pressure, compositions, and the
per-point options (`none` when the option is absent). Used in calculation_types.py:464-479. -/
structure ActPoint where
  T : Row
  P : Row
  xi : Row
  yi : Row
  Pguess : Option Row
  Pmin : Option Row
  Pmax : Option Row
  mode : Mode
  deriving DecidableEq, Repr

/-- calculation_types.py:466-468: `opts_tmp[key] = opts_tmp[key][i]`. -/
def optAt (o : PyDict Key (List Row)) (k : Key) (i : Nat) : Except PyErr (Option Row) :=
  match o.get? k with
  | none => .ok none
  | some l =>
    match l[i]? with
    | none => .error .indexError
    | some r => .ok (some r)

/-- calculation_types.py:464-479: one point. -/
def actPoint (d : Sys) (o : PyDict Key (List Row)) (m : Mode) (i : Nat) : Except PyErr ActPoint := do
  let pg ← optAt o .Pguess i
  let pmin ← optAt o .Pmin i
  let pmax ← optAt o .Pmax i
  let T ← at_ d .Tlist i
  let P ← at_ d .Plist i
  let xi ← at_ d .xilist i
  let yi ← at_ d .yilist i
  pure ⟨T, P, xi, yi, pg, pmin, pmax, m⟩

/-- One bubble or dew point: temperature, the given composition, and the options of the point
(`none` when the option is absent). Used in calculation_types.py:116-123. -/
structure EqPoint where
  T : Row
  comp : Row
  Pguess : Option Row
  Pmin : Option Row
  Pmax : Option Row
  deriving DecidableEq, Repr

/-- calculation_types.py:119-123 and 267-271: one point. -/
def eqPoint (c : Key) (d : Sys) (o : PyDict Key (List Row)) (i : Nat) : Except PyErr EqPoint := do
  let pmin ← optAt o .Pmin i
  let pmax ← optAt o .Pmax i
  let pg ← optAt o .Pguess i
  let T ← at_ d .Tlist i
  let x ← at_ d c i
  pure ⟨T, x, pg, pmin, pmax⟩

/-- calculation_types.py:82-123 `bubble_pressure` with `c = xilist`, and 230-271 `dew_pressure` with
`c = yilist`: the points. -/
def equilibriumPoints (c : Key) (sys0 : Sys) : Except PyErr (List EqPoint) := do
  if !sys0.contains c then throw .valueError
  let sys ← wrapComp sys0 c
  let th ← checkRows sys [.Tlist, c] none
  let n ← firstLen th
  let d ← (match setDefaults (asArgs th) (.one .Tlist) (.many [.scalar (.num (some stdT))]) (some n) with
    | .error e => .error e
    | .ok out => .ok ((asArgs th).update out))
  let o ← checkRows sys [.Pguess, .Pmin, .Pmax] (some n)
  runChunk (eqPoint c d o) (List.range n)

/-- `np.nan * np.ones(Eos.number_of_components)`, the default of a composition
(calculation_types.py:435-436). -/
def nanDefault (ncomp : Nat) : Arg Row := .arr (List.replicate ncomp (.num none))

/-- calculation_types.py:414-423: the supplied pressure becomes the guess when a composition is
solved for. -/
def guessFromPressure (th : PyDict Key (List Row)) : Option Mode → PyDict Key (List Row)
  | some .dewPoint | some .bubblePoint =>
    match th.get? .Plist with
    | some p => th.set .Pguess p
    | none => th
  | _ => th

/-- calculation_types.py:397-479 `activity_coefficient`: the points. -/
def activityPoints (ncomp : Nat) (sys0 : Sys) : Except PyErr (List ActPoint) := do
  let sys1 ← wrapComp sys0 .xilist
  let sys ← wrapComp sys1 .yilist
  let keys := [Key.Tlist, .yilist, .xilist, .Plist]
  let th0 ← checkRows sys keys none
  let n ← firstLen th0
  let m? := mode? (th0.contains .xilist) (th0.contains .yilist) (th0.contains .Plist)
  let th := guessFromPressure th0 m?
  match m? with
  | none => throw .valueError
  | some m =>
    let d ← withDefaults (asArgs th) keys
      [.scalar (.num (some stdT)), nanDefault ncomp, nanDefault ncomp, .scalar (.num none)] n
    let o ← checkRows sys [.Pguess, .Pmin, .Pmax] (some n)
    runChunk (actPoint d o m) (List.range n)

end Verif.CalcTypes
