import Verif.Model.CalcTypes
import Mathlib.Algebra.Order.Field.Rat

/-!
# `despasito/thermodynamics/calc.py`: bubble and dew points, and the jobs that run them

`calc_bubble_pressure` (3125-3269) and `calc_dew_pressure` (2977-3122) are the same procedure with the
phases exchanged.  Below, the *given* composition is the one the user supplies (liquid for a bubble
point, vapor for a dew point) and the *sought* composition is the one that is solved for.  The sought
composition is kept in a module-level variable (`_yi_global`, `_xi_global`), which is modelled as
state, as are the dictionaries `pressure_options` and `mole_fraction_options` that all points of a
batch share.

Parameters (`Env`): saturation pressures, the search of the pressure range, the inner loop
that finds the sought composition at a pressure, the equilibrium objective, the phase flags and the
root finder.  A root finder is any procedure that evaluates the objective at pressures of its choice,
finitely often (`Solver`).

Simplifications: numbers are rationals, NaN is `none`, a division by zero gives NaN.  The inner
loop normalises the array it is given in place (2113, 2305); all arrays it is given here already are
normalised, so that this changes nothing in exact arithmetic and is left out.  Of
`mole_fraction_options` only the entry `tol` is kept, of `pressure_options` only `method`; the
remaining entries are constant and part of the parameters.
-/

namespace Verif.BubbleDew
open Verif Verif.CalcTypes Verif.Parallel

/-- A composition, possibly with NaN entries. Used in calc.py:2861-2916. -/
abbrev Comp := List Num

/-- Sum with NaN propagating, `np.sum`. Used in calc.py:3210, 3062. -/
def csum : Comp → Num
  | [] => some 0
  | a :: l =>
    match a, csum l with
    | some x, some s => some (x + s)
    | _, _ => none

/-- `c / np.sum(c)`. Used in calc.py:2861-2916. -/
def normalise (c : Comp) : Comp :=
  match csum c with
  | none => c.map fun _ => none
  | some s => c.map fun a => a.bind fun x => if s = 0 then none else some (x / s)

/-- A root finder for a function of one variable: it finishes, raises, or asks for a value.
Called in calc.py:3242-3249 and 3095-3102. -/
inductive Solver where
  | done (P : ℚ)
  | fail (e : PyErr)
  | ask (P : ℚ) (next : Num → Solver)

/-- Computations that change a state, keeping the changes when an exception is raised. Used in calc.py:2861-2916. -/
abbrev M (σ α : Type) := σ → Except PyErr α × σ

/-- The thermodynamic model and numerical procedures, for one kind of calculation. Used in calc.py:2861-2916. -/
structure Env where
  /-- calc.py:238-351 `calc_saturation_properties` at temperature `T` for a composition: the
  pressure, NaN above the critical point. -/
  psat : ℚ → List ℚ → Except PyErr Num
  /-- calc.py:1067-1602, 1605-2051 `calc_Prange_xi`, `calc_Prange_yi`, from the temperature, the given
  composition, the guess and the tolerance: the two ends and the estimate, together with the
  value left in the module variable when it is assigned. -/
  prange : ℚ → List ℚ → Comp → Option ℚ → Except PyErr (Num × Num × Num) × Option Comp
  /-- calc.py:2054-2245, 2248-2406 `calc_vapor_composition`, `calc_liquid_composition`, from the
  temperature, the given composition, the guess, the tolerance and the pressure. -/
  inner : ℚ → List ℚ → Comp → Option ℚ → ℚ → Except PyErr Comp × Option Comp
  /-- calc.py:2910-2913, 2968-2971: the objective at the new composition. -/
  objAt : ℚ → List ℚ → Comp → ℚ → Except PyErr Num
  /-- Phase flag of the given and of the sought phase at a pressure. -/
  flagGiven : ℚ → List ℚ → ℚ → Except PyErr Num
  flagSought : ℚ → Comp → ℚ → Except PyErr Num
  /-- general_toolbox.py `solve_root` with the given method, starting pressure and bounds. -/
  solver : String → Num → ℚ → ℚ → Solver

/-- calc.py:2861-2916 `objective_bubble_pressure` and 2919-2974 `objective_dew_pressure`.  Reading the
module variable before it is assigned would be a `NameError`. -/
def objective (env : Env) (T : ℚ) (given : List ℚ) (tol : Option ℚ) (P : ℚ) :
    M (Option Comp) Num := fun g =>
  if P < 0 then (.ok (some 10), g)
  else
    match g with
    | none => (.error .other, g)
    | some guess =>
      match env.inner T given guess tol P with
      | (.error e, a) => (.error e, a.or g)
      | (.ok new, _) => (env.objAt T given (normalise new) P, some (normalise new))

/-- The root finder run on the objective. Used in calc.py:3125-3269. -/
def runSolver (obj : ℚ → M (Option Comp) Num) : Solver → M (Option Comp) ℚ
  | .done P, g => (.ok P, g)
  | .fail e, g => (.error e, g)
  | .ask P next, g =>
    match obj P g with
    | (.error e, g') => (.error e, g')
    | (.ok v, g') => runSolver obj (next v) g'

/-- The unit composition of component `i` among `n`. Used in calc.py:3196-3206 and 3048-3058. -/
def pureComp (n i : Nat) : List ℚ := (List.range n).map fun j => if j = i then 1 else 0

/-- calc.py:3196-3206 and 3048-3058: saturation pressures of the pure components, with the set value
above the critical point. -/
def psats (env : Env) (T Pset : ℚ) (n : Nat) : Except PyErr (List ℚ) :=
  runChunk (fun i =>
    match env.psat T (pureComp n i) with
    | .error e => .error e
    | .ok none => .ok Pset
    | .ok (some p) => .ok p) (List.range n)

/-- Quotient, NaN when the denominator is zero. Used in calc.py:3210, 3062. -/
def qdiv (a b : ℚ) : Num := if b = 0 then none else some (a / b)

/-- calc.py:3210, 3062: `1.0 / np.sum(z / Psat)`. -/
def initialP (z ps : List ℚ) : Num :=
  (csum (List.zipWith qdiv z ps)).bind fun s => qdiv 1 s

/-- `np.nansum`. Used in calc.py:3215-3216. -/
def nansum : Comp → ℚ
  | [] => 0
  | none :: l => nansum l
  | some x :: l => x + nansum l

/-- calc.py:3215-3216: `xi * Psat / P`, divided by its `nansum`. -/
def raoultVapor (P : Num) (xi ps : List ℚ) : Comp :=
  let y := List.zipWith (fun x p => P.bind fun P => qdiv (x * p) P) xi ps
  y.map fun a => a.bind fun v => qdiv v (nansum y)

/-- calc.py:3068-3069: `P * (yi / Psat)`, normalised. -/
def raoultLiquid (P : Num) (yi ps : List ℚ) : Comp :=
  normalise (List.zipWith (fun y p => P.bind fun P => (qdiv y p).map (P * ·)) yi ps)

/-- calc.py:3214, 3067: the module variable is used when it exists and has no NaN. -/
def startGuess (g : Option Comp) (dflt : Comp) : Comp :=
  match g with
  | none => dflt
  | some c => if c.any Option.isNone then dflt else c

/-- What a calculation ends with. Used in calc.py:3125-3269. -/
structure Result where
  P : ℚ
  /-- the guess the calculation started from -/
  start : Comp
  /-- the module variable at the end -/
  final : Comp
  flagGiven : Num
  flagSought : Num
  obj : Num
  deriving DecidableEq

/-- calc.py:3254-3256, 3107-3109: the tolerance of the inner loop is tightened in the caller's
dictionary. -/
def tightenTol : Option ℚ → Option ℚ
  | some t => if t > 1 / 10 ^ 10 then some (1 / 10 ^ 10) else some t
  | none => none

/-- calc.py:3208-3212, 3060-3064: the pressure that the ideal estimate of the composition is made
with. -/
def firstP (Pguess : Option ℚ) (z ps : List ℚ) : Num :=
  match Pguess with
  | none => initialP z ps
  | some p => some p

/-- calc.py:3226-3241, 3079-3094: the starting pressure. -/
def startP (Pguess : Option ℚ) (lo hi : ℚ) (est : Num) : Num :=
  match Pguess with
  | none => est
  | some p => if p > hi ∨ p < lo then est else some p

/-- The state shared by the points of a batch: module variable, `mole_fraction_options["tol"]`, and
`pressure_options["method"]`. Used in calc.py:3125-3269. -/
structure State where
  glob : Option Comp
  tol : Option ℚ
  pmethod : Option String
  deriving DecidableEq

/-- calc.py:3125-3269 `calc_bubble_pressure` with `raoult = raoultVapor`, and 2977-3122
`calc_dew_pressure` with `raoult = raoultLiquid`, up to the choice of the returned composition. -/
def calcPoint (env : Env) (raoult : Num → List ℚ → List ℚ → Comp) (Pset : ℚ) (method : String)
    (Pguess : Option ℚ) (T : ℚ) (given : List ℚ) : M State Result := fun st =>
  match psats env T Pset given.length with
  | .error e => (.error e, st)
  | .ok ps =>
    let start := startGuess st.glob (raoult (firstP Pguess given ps) given ps)
    match env.prange T given start st.tol with
    | (.error e, a) => (.error e, { st with glob := a.or (some start) })
    | (.ok (none, _, _), a) => (.error .valueError, { st with glob := a.or (some start) })
    | (.ok (some _, none, _), a) => (.error .valueError, { st with glob := a.or (some start) })
    | (.ok (some lo, some hi, est), a) =>
      match runSolver (objective env T given st.tol)
          (env.solver method (startP Pguess lo hi est) lo hi) (a.or (some start)) with
      | (.error e, g) => (.error e, { st with glob := g })
      | (.ok P, g) =>
        match env.flagGiven T given P with
        | .error e => (.error e, { st with glob := g })
        | .ok fg =>
          match env.flagSought T start P with
          | .error e => (.error e, { st with glob := g })
          | .ok fs =>
            let tol' := tightenTol st.tol
            match objective env T given tol' P g with
            | (.error e, g') => (.error e, { st with glob := g', tol := tol' })
            | (.ok obj, g') =>
              (.ok ⟨P, start, g'.getD [], fg, fs, obj⟩, { st with glob := g', tol := tol' })

/-- calc.py:3269: the composition returned with the result: `_yi_global` by `calc_bubble_pressure`, the local
variable `xi`, assigned before the solution, by `calc_dew_pressure` (3072, 3122). -/
def bubbleComp (r : Result) : Comp := r.final
/-- calc.py:3122: the composition returned by `calc_dew_pressure`. -/
def dewComp (r : Result) : Comp := r.start

/-- One point of a batch. Used in calculation_types.py:147-169. -/
structure Point where
  T : ℚ
  given : List ℚ
  Pguess : Option ℚ
  deriving DecidableEq

/-- Options that are the same for all points: `method`, when given directly (default "bisect"), and
`Psat_set`. Used in calculation_types.py:158-160. -/
structure Opts where
  method : String := "bisect"
  Pset : ℚ := 10000000

/-- Numbers of a composition that are not zero (`xi[xi != 0.0]`). Used in calculation_types.py:147-169. -/
def nonzero (c : List ℚ) : List ℚ := c.filter (· ≠ 0)

/-- calculation_types.py:158-160: the method of the shared dictionary is moved into the options of
this point, and removed from the shared dictionary. -/
def takeMethod (o : Opts) (st : State) : String × State :=
  match st.pmethod with
  | some m => (m, { st with pmethod := none })
  | none => (o.method, st)

/-- calculation_types.py:147-169 `_bubble_pressure_wrapper` and 293-315 `_dew_pressure_wrapper`: the
row of results, pressure, sought composition, flag of the sought and of the given phase as ordered by
`flags`, objective. -/
def pointJob (env : Env) (raoult : Num → List ℚ → List ℚ → Comp) (pick : Result → Comp)
    (flags : Num → Num → List (Cell Num)) (o : Opts) (p : Point) (st : State) : Out × State :=
  let failed : Out := [.scal none, nans p.given.length, flag3, flag3, .scal none]
  if (nonzero p.given).length = 1 then
    match env.psat p.T p.given with
    | .ok P => ([.scal P, .vec (p.given.map some), .scal (some 0), .scal (some 1), .scal (some 0)], st)
    | .error _ => (failed, st)
  else
    let (m, st1) := takeMethod o st
    match calcPoint env raoult o.Pset m p.Pguess p.T p.given st1 with
    | (.ok r, st2) =>
      ([.scal (some r.P), .vec (pick r)] ++ flags r.flagSought r.flagGiven ++ [.scal r.obj], st2)
    | (.error _, st2) => (failed, st2)

/-- The bubble point: the sought phase is the vapor; flags are returned vapor first. calculation_types.py:147-169. -/
def bubbleJob (env : Env) : Opts → Point → State → Out × State :=
  pointJob env raoultVapor bubbleComp (fun fs fg => [.scal fs, .scal fg])

/-- The dew point: the sought phase is the liquid; flags are returned vapor first. calculation_types.py:293-315. -/
def dewJob (env : Env) : Opts → Point → State → Out × State :=
  pointJob env raoultLiquid dewComp (fun fs fg => [.scal fg, .scal fs])

/-- A batch run by one process, in order (`serial_job`, or one chunk of a pool).
calculation_types.py:125-131, parallelization.py:141-166. -/
def runBatch (job : Point → State → Out × State) : List Point → State → List Out × State
  | [], st => ([], st)
  | p :: ps, st =>
    let (r, st1) := job p st
    let (rs, st2) := runBatch job ps st1
    (r :: rs, st2)

/-- A pool: the points of a chunk arrive together with one copy of the options as they were at the
start; the module variable is whatever the worker that takes chunk `i` has, `globs i`.
calculation_types.py:125-131, parallelization.py:114-139. -/
def runPool (job : Point → State → Out × State) (c : Nat) (pts : List Point) (st : State)
    (globs : Nat → Option Comp) : List (List Out) :=
  (List.range (numChunks c pts)).map fun i =>
    (runBatch job (chunkAt c pts i) { st with glob := globs i }).1

end Verif.BubbleDew
