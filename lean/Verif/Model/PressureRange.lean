import Verif.Model.Composition

/-!
# `despasito/thermodynamics/calc.py:1067-1602`: the pressure range of a bubble point

`calc_Prange_xi`.  Numbers are elements of a linearly ordered field.  A value of the objective function that is NaN or
infinite is `none`: all the function does with these values is comparing them (false) and drawing a straight
line through them.  The fugacity coefficients of the liquid, `calc_vapor_composition`, the random numbers and the
minimisation inside the range are parameters.  Log messages are left out, and so is the branch for a vapour
composition with NaN (calc.py:1216-1223), which `calc_vapor_composition` does not return (see
`Model/Composition.lean`).
-/

namespace Verif.PressureRange
open Verif Verif.PhaseDensity Verif.Composition

variable {K : Type} [Field K] [LinearOrder K]

/-- The arguments of calc.py:1067-1082. -/
structure Opts (K : Type) where
  pmin : Option K
  pmax : Option K
  maxiter : ℕ
  ptol : K
  xytol : K
  maxfactor : K
  minfactor : K
  pminAllowed : K

/-- External calls. Used in calc.py:1150-1160. -/
structure Env (K : Type) where
  xi : List K
  /-- `Pvspline(extrema)`, the pressures at the extrema of the isotherm. -/
  extremaP : List K
  /-- `calc_liquid_fugacity_coefficient` at a pressure: coefficients and flag. -/
  liq : K → Except PyErr (List (Option K) × ℕ)
  /-- `calc_vapor_composition` from a guess, the liquid coefficients and a pressure. -/
  vap : List K → List (Option K) → K → Except PyErr (Result K)
  /-- `np.random.rand(1)[0]`, by the number of iterations left. -/
  rand : ℕ → K
  /-- calc.py:1489-1537: the pressure between two bounds at which a minimiser stops, and `objective_bubble_pressure`
  there.  The branch for a negative pressure is part of it. -/
  well : K → K → Except PyErr (K × K)
  /-- What an assignment to an entry of `Prange` keeps: the number, or its integer part if `Pmin` and `Pmax` are both
  integers, because `np.array([Pmin, Pmax])` is an array of integers then. -/
  store : K → K

/-- calc.py:1150-1172: the limits and whether they were given. -/
structure Limits (K : Type) where
  lo : K
  hi : K
  hardLo : Bool
  hardHi : Bool

/-- `min` of a list with a first entry. Used in calc.py:1150-1160. -/
def minOf (a : K) (l : List K) : K := l.foldl min a

/-- `max` of a list with a first entry. Used in calc.py:1162-1170. -/
def maxOf (a : K) (l : List K) : K := l.foldl max a

/-- calc.py:1150-1160. -/
def lowLimit (o : Opts K) (E : Env K) : K :=
  match o.pmin with
  | some v => v
  | none =>
    match E.extremaP with
    | [] => 1000
    | a :: l => if minOf a l < 0 then 1000 else minOf a l

/-- calc.py:1162-1170. -/
def upper (o : Opts K) (E : Env K) : K :=
  match o.pmax with
  | some v => v
  | none =>
    match E.extremaP with
    | [] => 100000
    | a :: l => maxOf a l

/-- calc.py:1171-1172. -/
def highLimit (o : Opts K) (E : Env K) (lo : K) : K :=
  if upper o E < lo then lo * o.maxfactor else upper o E

/-- calc.py:1150-1172. -/
def limits (o : Opts K) (E : Env K) : Limits K :=
  ⟨lowLimit o E, highLimit o E (lowLimit o E), o.pmin.isSome, o.pmax.isSome⟩

/-- The variables of the two loops. Used in calc.py:1261-1264. -/
structure St (K : Type) where
  p : K
  P0 : K
  P1 : K
  O0 : Option K
  O1 : Option K
  /-- `Prange` is a list (calc.py:1240, 1282) and not an array. -/
  isList : Bool
  yi : List K
  fmax : Bool
  fmin : Bool
  critical : Bool
  liquid : Bool
  vapor : Bool
  obj : Option K

/-- `(Prange[1] - Prange[0]) / 2 + Prange[0]`. Used in calc.py:1237-1247 and 1279-1289. -/
def St.mid (s : St K) : K := (s.P1 - s.P0) / 2 + s.P0

/-- What is kept in `Prange`. Used in calc.py:1401-1403. -/
def keep (E : Env K) (s : St K) (p : K) : K := if s.isList then p else E.store p

/-- Assignment of the lower end. Used in calc.py:1273-1276. -/
def St.setLo (E : Env K) (s : St K) (p : K) (o : Option K) : St K := { s with P0 := keep E s p, O0 := o }

/-- Assignment of the upper end. Used in calc.py:1261-1264. -/
def St.setHi (E : Env K) (s : St K) (p : K) (o : Option K) : St K := { s with P1 := keep E s p, O1 := o }

/-- E.g. calc.py:1261-1264: a higher pressure, which becomes the upper end if it is above it. -/
def raiseTo (E : Env K) (s : St K) (p : K) : St K :=
  if s.P1 < p then { s.setHi E p none with p := p } else { s with p := p }

/-- E.g. calc.py:1273-1276: a lower pressure, which becomes the lower end if it is below it. -/
def lowerTo (E : Env K) (s : St K) (p : K) : St K :=
  if p < s.P0 then { s.setLo E p none with p := p } else { s with p := p }

/-- calc.py:1237-1247 and 1279-1289: start again from the limits, looking for a critical fluid. -/
def reset (o : Opts K) (E : Env K) (L : Limits K) (s : St K) : St K :=
  let s := { s with critical := true, fmax := false, O0 := none, O1 := none, P0 := L.lo, P1 := L.hi, isList := true }
  if L.hardHi then { s with p := s.mid } else raiseTo E s (o.maxfactor * L.lo)

/-- The middle of the range if the flag is set, otherwise a higher pressure. Used in calc.py:1230-1276. -/
def upTo (o : Opts K) (E : Env K) (b : Bool) (s : St K) : St K :=
  if b then { s with p := s.mid } else raiseTo E s (o.maxfactor * s.p)

/-- The middle of the range if the flag is set, otherwise a lower pressure. Used in calc.py:1230-1276. -/
def downTo (o : Opts K) (E : Env K) (b : Bool) (s : St K) : St K :=
  if b then { s with p := s.mid } else lowerTo E s (o.minfactor * s.p)

/-- `calc_vapor_composition` and `equilibrium_objective` (calc.py:1211-1214, 1424-1427): composition, flag, objective. -/
def vapor (E : Env K) (yi : List K) (φl : List (Option K)) (p : K) : Except PyErr (List K × Option ℕ × K) := do
  let (y, φv, flag) ← E.vap yi φl p
  let obj ← equilibriumObjective .vapor E.xi φl φv
  .ok (y, flag, obj)

/-- `flagv not in [0, 2, 4]`; a NaN is not. Used in calc.py:1208-1360. -/
def notVapor (flag : Option ℕ) : Bool := !(flag == some 0 || flag == some 2 || flag == some 4)

/-- calc.py:1230-1276: the composition of the liquid is found again in a critical fluid. -/
def critFluid (o : Opts K) (E : Env K) (L : Limits K) (s : St K) (obj : K) : St K :=
  if (s.fmax || L.hardHi) && s.liquid then
    let s := ({ s with fmin := true }).setLo E s.p (some obj)
    if |s.P1 - s.P0| < o.ptol then reset o E L s else { s with p := s.mid }
  else if (s.fmin || L.hardLo) && s.vapor then
    let s := ({ s with fmax := true }).setHi E s.p (some obj)
    { s with p := s.mid }
  else if s.critical then upTo o E L.hardHi (s.setLo E s.p (some obj))
  else downTo o E L.hardLo (({ s with fmax := true }).setHi E s.p (some obj))

/-- calc.py:1226-1289: the same with a new start when the pressure becomes too low. -/
def reproduced (o : Opts K) (E : Env K) (L : Limits K) (s : St K) (obj : K) : St K :=
  if (critFluid o E L s obj).p < o.pminAllowed then reset o E L (critFluid o E L s obj) else critFluid o E L s obj

/-- calc.py:1292-1324: the vapour is a liquid, or there is none. -/
def foundLiquid (o : Opts K) (E : Env K) (L : Limits K) (s : St K) (obj : K) : St K :=
  let s := if L.hardLo && decide (s.p ≤ L.lo) then { s with critical := true, fmax := false } else s
  let s := { s with liquid := true }
  if s.critical then upTo o E L.hardHi (({ s with fmin := true }).setLo E s.p (some obj))
  else downTo o E (s.fmin || L.hardLo) (({ s with fmax := true }).setHi E s.p (some obj))

/-- calc.py:1332-1347: a vapour with a negative objective. -/
def tooHigh (o : Opts K) (E : Env K) (L : Limits K) (s : St K) (obj : K) : St K :=
  downTo o E (s.fmin || L.hardLo) (({ s with fmax := true, liquid := true }).setHi E s.p (some obj))

/-- calc.py:1208-1360: the liquid is as expected; the flag says that the minimum is found. -/
def lowLiquid (o : Opts K) (E : Env K) (L : Limits K) (s : St K) (φl : List (Option K)) : Except PyErr (St K × Bool) := do
  let (y, flag, obj) ← vapor E s.yi φl s.p
  let s := { s with yi := y, obj := some obj }
  if isTrivial o.xytol E.xi y && flag == some 2 then .ok (reproduced o E L s obj, false)
  else if notVapor flag then .ok (foundLiquid o E L s obj, false)
  else if 0 < obj then .ok (s.setLo E s.p (some obj), true)
  else if obj < 0 then .ok (tooHigh o E L s obj, false)
  else .error .valueError

/-- calc.py:1361-1372: the liquid is a vapour. -/
def lowVapor (o : Opts K) (E : Env K) (L : Limits K) (s : St K) : St K :=
  let s := ({ s with vapor := true, fmin := true }).setLo E s.p none
  if s.fmax || L.hardHi then { s with p := s.mid } else { s with p := o.maxfactor * s.P0 }

/-- calc.py:1208-1372: by the flag of the liquid. -/
def lowPhase (o : Opts K) (E : Env K) (L : Limits K) (s : St K) (φl : List (Option K)) (flag : ℕ) :
    Except PyErr (St K × Bool) :=
  if flag = 1 ∨ flag = 2 then lowLiquid o E L s φl else .ok (lowVapor o E L s, false)

/-- calc.py:1374-1377: a pressure outside a range that is bounded on both sides. -/
def clamp (L : Limits K) (s : St K) : St K :=
  if (L.hardLo || s.fmin) && (L.hardHi || s.fmax) && (decide (s.p < s.P0) || decide (s.P1 < s.p))
  then { s with p := (s.P1 - s.P0) / 1 + s.P0 } else s

/-- calc.py:1379-1388: checks at the end of an iteration. -/
def lowCheck (L : Limits K) (s : St K) : Except PyErr (St K) :=
  if s.p ≤ 0 then .error .valueError
  else if L.hardLo && decide (L.lo = s.p) then .error .valueError
  else .ok s

/-- calc.py:1188-1388: one iteration of the first loop. -/
def lowStep (o : Opts K) (E : Env K) (L : Limits K) (s : St K) : Except PyErr (St K × Bool) := do
  let (φl, flag) ← E.liq s.p
  if φl.any (·.isNone) then
    .ok (downTo o E L.hardLo (({ s with fmax := true, liquid := true }).setHi E s.p none), false)
  else
    let (s', found) ← lowPhase o E L s φl flag
    if found then .ok (s', true)
    else do
      let s'' ← lowCheck L (clamp L s')
      .ok (s'', false)

/-- calc.py:1188-1393: the first loop; the last iteration raises even if it found the minimum. -/
def lowLoop (o : Opts K) (E : Env K) (L : Limits K) : ℕ → St K → Except PyErr (St K)
  | 0, _ => .error .unboundLocal
  | n + 1, s => do
    let (s', found) ← lowStep o E L s
    if n = 0 then .error .valueError
    else if found then .ok s'
    else lowLoop o E L n s'

/-- calc.py:1401-1403: an upper end above the lower one; line 1403 compares instead of assigning. -/
def between (o : Opts K) (E : Env K) (s : St K) : St K :=
  if s.P1 ≤ s.P0 then { s with P1 := keep E s (s.P0 * o.maxfactor) } else s

/-- calc.py:1467-1469: where the straight line through the ends crosses zero. -/
def crossing (P0 P1 O0 O1 : K) : K :=
  let slope := (O1 - O0) / (P1 - P0)
  let intercept := O1 - slope * P1;
  -intercept / slope

/-- calc.py:1567-1573: `nanmax` of the crossing and a higher pressure.  Without a slope the crossing is NaN or minus
infinity. -/
def extrapolate (o : Opts K) (s : St K) : K :=
  match s.O0, s.O1 with
  | some O0, some O1 =>
    if s.P1 = s.P0 ∨ O1 = O0 then o.maxfactor * s.P1
    else max (crossing s.P0 s.P1 O0 O1) (o.maxfactor * s.P1)
  | _, _ => o.maxfactor * s.P1

/-- The guess from the ends; NaN (`none`) without finite objective values or without a slope. calc.py:1543-1545.  (If the
limits were given as python floats and the range has been reset, all numbers are python floats and a slope of zero raises
`ZeroDivisionError`; this is left out.) -/
def guess (s : St K) : Option K :=
  match s.O0, s.O1 with
  | some O0, some O1 => if s.P1 = s.P0 ∨ O1 = O0 then none else some (crossing s.P0 s.P1 O0 O1)
  | _, _ => none

/-- `some` range with its guess; a guess of NaN or infinity is `none`. Used in calc.py:1410-1600. -/
structure Range (K : Type) where
  P0 : K
  P1 : K
  guess : Option K
  /-- The objective values at the ends, which the function only logs. -/
  O0 : Option K
  O1 : Option K
  /-- `flag_critical` when the function returns. -/
  critical : Bool
  /-- The upper end is where the minimiser stopped. -/
  well : Bool
deriving DecidableEq

/-- One iteration of the second loop. Used in calc.py:1481-1552. -/
inductive High (K : Type) where
  /-- `continue`, or to the checks at the end of the iteration -/
  | skip : St K → List (Option K) → High K
  | next : St K → List (Option K) → High K
  | found : Range K → High K
  | failed : High K

/-- The range in a state. Used in calc.py:1374-1377. -/
def St.range (s : St K) (well : Bool) : Range K := ⟨s.P0, s.P1, guess s, s.O0, s.O1, s.critical, well⟩

/-- calc.py:1481-1552: the objective has begun to rise. -/
def inWell (E : Env K) (s : St K) : Except PyErr (High K) := do
  let (p, obj) ← E.well s.P0 s.P1
  if 0 < obj then .ok (.found ((s.setHi E p (some obj)).range true)) else .ok .failed

/-- calc.py:1477: the objective is more than a tenth above the previous one. -/
def rising (first : Bool) (obj : K) (prev : Option K) : Bool :=
  !first && prev.any fun q => decide (11 / 10 * q < obj)

/-- calc.py:1472-1573: the objective is not negative; `objs` are the earlier values, newest first. -/
def positive (o : Opts K) (E : Env K) (L : Limits K) (n : ℕ) (first : Bool) (objs : List (Option K)) (s : St K) (obj : K) :
    Except PyErr (High K) :=
  let objs' := some obj :: objs
  if rising first obj (objs.headD none) then inWell E (s.setHi E s.p (some obj))
  else if s.fmax then
    let s := s.setLo E s.p (some obj)
    .ok (.next { s with p := s.mid } objs')
  else if L.hardHi then .ok (.next { s with p := (s.P1 - s.P0) * E.rand n + s.P0 } objs')
  else
    let s := if s.P1 < s.p then s.setLo E s.P1 s.O1 else s
    let s := s.setHi E s.p (some obj)
    .ok (.next { s with p := extrapolate o s } objs')

/-- calc.py:1410-1573: one iteration of the second loop, without the checks at its end. -/
def highStep (o : Opts K) (E : Env K) (L : Limits K) (n : ℕ) (first : Bool) (objs : List (Option K)) (s : St K) :
    Except PyErr (High K) := do
  let (φl, _) ← E.liq s.p
  if φl.any (·.isNone) then
    let s := ({ s with fmax := true }).setHi E s.p s.obj
    .ok (.skip { s with p := s.mid } objs)
  else
    let (y, flag, obj) ← vapor E s.yi φl s.p
    let s := { s with yi := y, obj := some obj }
    if notVapor flag then
      if s.critical then .ok (.next (upTo o E L.hardHi (s.setLo E s.p (some obj))) objs)
      else
        let s := ({ s with fmax := true }).setHi E s.p (some obj)
        .ok (.next { s with p := s.mid } objs)
    else if isTrivial o.xytol E.xi y then
      let s := ({ s with fmax := true }).setHi E s.p (some obj)
      .ok (.next { s with p := s.mid } objs)
    else if obj < 0 then
      let s := if s.P1 < s.p then s.setLo E s.P1 s.O1 else s
      let s := s.setHi E s.p (some obj)
      .ok (.found (s.range false))
    else positive o E L n first objs s obj

/-- calc.py:1410-1600: the second loop.  `none` is the pair of NaN; it is also what a range found in the last iteration
becomes. -/
def highLoop (o : Opts K) (E : Env K) (L : Limits K) : ℕ → Bool → List (Option K) → St K → Except PyErr (Option (Range K))
  | 0, _, _, _ => .error .unboundLocal
  | n + 1, first, objs, s => do
    match ← highStep o E L n first objs s with
    | .found r => .ok (if n = 0 then none else some r)
    | .failed => .ok none
    | .skip s' objs' => if n = 0 then .ok none else highLoop o E L n false objs' s'
    | .next s' objs' =>
      if s'.p ≤ 0 then .error .valueError
      else if |s'.P1 - s'.P0| < o.ptol then .error .valueError
      else if n = 0 then .ok none
      else highLoop o E L n false objs' s'

/-- calc.py:1174-1187: the state before the first loop. -/
def start (L : Limits K) (yi : List K) : St K :=
  ⟨L.lo, L.lo, L.hi, some 0, some 0, false, yi, false, false, false, false, false, none⟩

/-- calc.py:1067-1602 `calc_Prange_xi`. -/
def search (o : Opts K) (E : Env K) (yi : List K) : Except PyErr (Option (Range K)) := do
  let L := limits o E
  let s ← lowLoop o E L o.maxiter (start L yi)
  let s := between o E s
  highLoop o E L o.maxiter true [s.O1] { s with p := s.P1 }

end Verif.PressureRange
