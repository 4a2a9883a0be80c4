import Verif.Model.BubbleDew
import Verif.Model.Dispatch

/-!
# From the rows of a batch to the table: `calculation_types.py` and `write_output.py`

The dictionaries of results that the calculation types return, how the file is written from them, and the job for activity
coefficients.

Simplifications: those of `Model/BubbleDew.lean`, `Model/CalcTypes.lean` and `Model/Dispatch.lean`; a given composition with a NaN
ends in an exception, and so do compositions of different lengths.
-/

namespace Verif.Rows
open Verif Verif.CalcTypes Verif.BubbleDew

/-- A result of a job as a cell of the table. Used in write_output.py:67-75. -/
def cell {ν : Type} : Parallel.Cell ν → Dispatch.Cell ν
  | .scal x => .num x
  | .vec l => .arr l

/-- A list of numbers as a column, `thermo_dict["Tlist"]`. Used in calculation_types.py:660-668. -/
def numbers {ν : Type} (l : List ν) : List (Parallel.Cell ν) := l.map .scal

/-- A list of compositions as a column, `thermo_dict["xilist"]`. Used in calculation_types.py:889-896. -/
def arrays {ν : Type} (l : List (List ν)) : List (Parallel.Cell ν) := l.map .vec

/-- A dictionary of results with the keys in order. Used in calculation_types.py:660-668. -/
abbrev OutDict := List (String × List (Dispatch.Cell Num))

/-- The dictionary from keys and columns. Used in calculation_types.py:660-668. -/
def dict (l : List (String × List (Parallel.Cell Num))) : OutDict := l.map fun p => (p.1, p.2.map cell)

/-- calculation_types.py:136-144. -/
def bubbleDict (T : List Num) (xi : List (List Num)) : List (List (Parallel.Cell Num)) → Except PyErr OutDict
  | [P, yi, fv, fl, obj] =>
    .ok (dict [("T", numbers T), ("xi", arrays xi), ("P", P), ("yi", yi), ("flagl", fl), ("flagv", fv), ("obj", obj)])
  | _ => .error .valueError

/-- calculation_types.py:282-290. -/
def dewDict (T : List Num) (yi : List (List Num)) : List (List (Parallel.Cell Num)) → Except PyErr OutDict
  | [P, xi, fv, fl, obj] =>
    .ok (dict [("T", numbers T), ("xi", xi), ("P", P), ("yi", arrays yi), ("flagl", fl), ("flagv", fv), ("obj", obj)])
  | _ => .error .valueError

/-- calculation_types.py:653-668. -/
def flashDict (T P : List Num) : List (List (Parallel.Cell Num)) → Except PyErr OutDict
  | [xi, yi, fv, fl, obj] =>
    .ok (dict [("T", numbers T), ("xi", xi), ("P", numbers P), ("yi", yi), ("flagl", fl), ("flagv", fv), ("obj", obj)])
  | _ => .error .valueError

/-- calculation_types.py:760-768. -/
def saturationDict (T : List Num) : List (List (Parallel.Cell Num)) → Except PyErr OutDict
  | [P, rl, rv] => .ok (dict [("T", numbers T), ("Psat", P), ("rhol", rl), ("rhov", rv)])
  | _ => .error .valueError

/-- calculation_types.py:882-896 (names `xi`, `rhol`, `phil`, `flagl`) and 1006-1020 (`yi`, `rhov`, `phiv`, `flagv`). -/
def propertyDict (comp rho phi flag : String) (P T : List Num) (z : List (List Num)) :
    List (List (Parallel.Cell Num)) → Except PyErr OutDict
  | [r, p, f] => .ok (dict [("P", numbers P), ("T", numbers T), (comp, arrays z), (rho, r), (phi, p), (flag, f)])
  | _ => .error .valueError

/-- calculation_types.py:1136-1149; the flag is not returned. -/
def solubilityDict (P T : List Num) (xi : List (List Num)) : List (List (Parallel.Cell Num)) → Except PyErr OutDict
  | [r, _, d] => .ok (dict [("P", numbers P), ("T", numbers T), ("xi", arrays xi), ("rhol", r), ("delta", d)])
  | _ => .error .valueError

/-- calculation_types.py:1272-1309. -/
def verifyDict (P T : List Num) (xi : List (List Num)) : List (List (Parallel.Cell Num)) → Except PyErr OutDict
  | [v1, v2, fv, pv, l1, l2, fl, pl] =>
    .ok (dict [("P", numbers P), ("T", numbers T), ("xi", arrays xi), ("residual_v1", v1), ("residual_v2", v2), ("flagv", fv),
      ("log_phivi", pv), ("residual_l1", l1), ("residual_l2", l2), ("flagl", fl), ("log_phili", pl)])
  | _ => .error .valueError

/-- calculation_types.py:485-509. -/
def activityDict : List (List (Parallel.Cell Num)) → Except PyErr OutDict
  | [T, P, xi, yi, fv, fl, obj, ps, g] =>
    .ok (dict [("T", T), ("xi", xi), ("P", P), ("yi", yi), ("flagl", fl), ("flagv", fv), ("obj", obj), ("Psat", ps), ("gamma", g)])
  | _ => .error .valueError

/-! ### Columns that are arrays of objects -/

/-- write_output.py:68-85 for the arrays of objects that `serial_job` returns: when the first cell is a number, `np.array(value)`
keeps arrays among the cells as they are. -/
def columnsObj {α : Type} (key : String) (values : List (Dispatch.Cell α)) :
    Except PyErr (List (String × List (Dispatch.Cell α))) :=
  match values with
  | .num _ :: _ => .ok [(key, values)]
  | _ => match Dispatch.columnsOf key values with
    | .error e => .error e
    | .ok cs => .ok (cs.map fun c => (c.1, c.2.map .num))

/-- All columns, write_output.py:67-85. -/
def allColumnsObj {α : Type} : List (String × List (Dispatch.Cell α)) → Except PyErr (List (String × List (Dispatch.Cell α)))
  | [] => .ok []
  | (k, v) :: r => match columnsObj k v with
    | .error e => .error e
    | .ok c => match allColumnsObj r with
      | .error e => .error e
      | .ok cs => .ok (c ++ cs)

/-- `writeout_thermo_dict` after a serial calculation, write_output.py:32-102; an array in a cell is printed as it is. -/
def writeObj {α : Type} (calctype : String) (out : List (String × List (Dispatch.Cell α))) :
    Except PyErr (Dispatch.Table (Dispatch.Cell α)) :=
  match allColumnsObj out with
  | .error e => .error e
  | .ok [] => .error .valueError
  | .ok (c :: cs) =>
    if cs.all (fun d => decide (d.2.length = c.2.length)) then
      .ok { comment := Dispatch.comment calctype
            names := (c :: cs).map (fun d => (d.1, Dispatch.unitOf d.1))
            rows := (List.range c.2.length).map (fun (i : Nat) => Dispatch.nth i ((c :: cs).map Prod.snd)) }
    else .error .valueError

/-! ### Activity coefficients -/

/-- Product with NaN. Used in calc.py:3898. -/
def nmul (a b : Num) : Num := a.bind fun x => b.map (x * ·)

/-- Quotient with NaN, also for the denominator zero. Used in calc.py:3898. -/
def ndiv (a b : Num) : Num := a.bind fun x => b.bind fun y => qdiv x y

/-- `yi * P / (Psat * xi)`. calc.py:3898. -/
def gammas (P : Num) (xi yi ps : Comp) : Comp :=
  List.zipWith (fun y d => ndiv (nmul y P) d) yi (List.zipWith nmul ps xi)

/-- The saturation pressures of the pure components, NaN above the critical point. calc.py:3891-3896. -/
def purePressures (env : Env) (T : ℚ) (n : Nat) : Except PyErr (List Num) :=
  Parallel.runChunk (fun i => env.psat T (pureComp n i)) (List.range n)

/-- `activity_coefficient`, calc.py:3856-3900. -/
def activity (env : Env) (T : ℚ) (P : Num) (xi yi : Comp) : Except PyErr (Comp × List Num) :=
  match purePressures env T xi.length with
  | .error e => .error e
  | .ok ps => if yi.length = xi.length then .ok (gammas P xi yi ps, ps) else .error .valueError

/-- A composition without NaN. Used in calculation_types.py:523-526. -/
def known (c : Comp) : Except PyErr (List ℚ) :=
  match c.mapM id with
  | none => .error .valueError
  | some l => .ok l

/-- What the calculation of a mode gives: pressure, compositions, flags of vapor and liquid, objective.
Used in calculation_types.py:523-530. -/
structure Phases where
  P : Num
  xi : Comp
  yi : Comp
  flagv : Num
  flagl : Num
  obj : Num
  deriving DecidableEq

/-- One point: temperature, pressure, compositions (NaN where not given) and guess. Used in calculation_types.py:464-479. -/
structure ActIn where
  T : ℚ
  P : Num
  xi : Comp
  yi : Comp
  Pguess : Option ℚ

/-- The calculation of the mode. `envD`, `envB` are those of dew and bubble points, `fl` is `calc_flash`.
calculation_types.py:523-530. -/
def phases (envD envB : Env) (fl : ℚ → Num → Except PyErr FlashResult) (o : Opts) (method : String) (m : Mode) (p : ActIn) :
    M State Phases := fun st =>
  match m with
  | .dewPoint =>
    match known p.yi with
    | .error e => (.error e, st)
    | .ok y =>
      match calcPoint envD raoultLiquid o.Pset method p.Pguess p.T y st with
      | (.error e, st') => (.error e, st')
      | (.ok r, st') => (.ok ⟨some r.P, dewComp r, p.yi, r.flagGiven, r.flagSought, r.obj⟩, st')
  | .bubblePoint =>
    match known p.xi with
    | .error e => (.error e, st)
    | .ok x =>
      match calcPoint envB raoultVapor o.Pset method p.Pguess p.T x st with
      | (.error e, st') => (.error e, st')
      | (.ok r, st') => (.ok ⟨some r.P, p.xi, bubbleComp r, r.flagSought, r.flagGiven, r.obj⟩, st')
  | .flash =>
    match fl p.T p.P with
    | .error e => (.error e, st)
    | .ok r => (.ok ⟨p.P, r.xi, r.yi, r.flagv, r.flagl, r.obj⟩, st)
  | .standard => (.ok ⟨p.P, p.xi, p.yi, none, none, none⟩, st)

/-- The row of a failed point: numbers for the saturation pressures and the coefficients. calculation_types.py:542-573. -/
def failedRow (ncomp : Nat) (m : Mode) (p : ActIn) : Out :=
  match m with
  | .dewPoint => [.scal (some p.T), .scal none, nans p.yi.length, .vec p.yi, flag3, flag3, .scal none, .scal none, .scal none]
  | .bubblePoint => [.scal (some p.T), .scal none, .vec p.xi, nans p.xi.length, flag3, flag3, .scal none, .scal none, .scal none]
  | .flash => [.scal (some p.T), .scal p.P, nans ncomp, nans ncomp, flag3, flag3, .scal none, .scal none, .scal none]
  | .standard => [.scal (some p.T), .scal p.P, .vec p.xi, .vec p.yi, .scal none, .scal none, .scal none, .scal none, .scal none]

/-- `_activity_coefficient_wrapper`. calculation_types.py:512-577. -/
def activityJob (envD envB : Env) (fl : ℚ → Num → Except PyErr FlashResult) (ncomp : Nat) (o : Opts) (m : Mode) (p : ActIn)
    (st : State) : Out × State :=
  let (method, st1) := takeMethod o st
  match phases envD envB fl o method m p st1 with
  | (.error _, st2) => (failedRow ncomp m p, st2)
  | (.ok r, st2) =>
    match activity envD p.T r.P r.xi r.yi with
    | .error _ => (failedRow ncomp m p, st2)
    | .ok (g, ps) =>
      ([.scal (some p.T), .scal r.P, .vec r.xi, .vec r.yi, .scal r.flagv, .scal r.flagl, .scal r.obj, .vec ps, .vec g], st2)

/-- The rows of a batch, in order. calculation_types.py:481-484, parallelization.py:141-166. -/
def activityRows (envD envB : Env) (fl : ℚ → Num → Except PyErr FlashResult) (ncomp : Nat) (o : Opts) (m : Mode) :
    List ActIn → State → List Out
  | [], _ => []
  | p :: ps, st =>
    (activityJob envD envB fl ncomp o m p st).1 ::
      activityRows envD envB fl ncomp o m ps (activityJob envD envB fl ncomp o m p st).2

end Verif.Rows
