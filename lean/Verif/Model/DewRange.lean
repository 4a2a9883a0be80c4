import Verif.Model.PressureRange

/-!
# `despasito/thermodynamics/calc.py:1605-2051`: the pressure range of a dew point

`calc_Prange_yi`, with the conventions of `Model/PressureRange.lean`, whose options, limits and state are used: the given
phase is the vapour now, so that in `Env` the field `xi` is the vapour composition, `liq` gives the fugacity coefficients of
the vapour and `vap` is `calc_liquid_composition`; `St.yi` is the liquid composition.  The limits (1688-1717) are
computed as for a bubble point.  The branch for a liquid composition with NaN (1751-1762) is left out, because
`calc_liquid_composition` does not return one (see `Model/Composition.lean`), and so is the code after the
`TypeError` of line 1952, which cannot be reached.
-/

namespace Verif.DewRange
open Verif Verif.PhaseDensity Verif.PressureRange
open Verif.Composition (isTrivial)

variable {K : Type} [Field K] [LinearOrder K]

/-- `calc_liquid_composition` and `equilibrium_objective` (calc.py:1747-1751, 1893-1896); the first raises when a
coefficient of the vapour is NaN (2302-2303). -/
def liquid (E : Env K) (xi : List K) (φv : List (Option K)) (p : K) : Except PyErr (List K × Option ℕ × K) :=
  if φv.any (·.isNone) then .error .valueError
  else do
    let (x, φl, flag) ← E.vap xi φv p
    let obj ← equilibriumObjective .liquid E.xi φl φv
    .ok (x, flag, obj)

/-- calc.py:1769-1786: the composition of the vapour is found again. -/
def sameFluid (o : Opts K) (E : Env K) (L : Limits K) (s : St K) (obj : K) : St K :=
  if s.critical then upTo o E L.hardHi (s.setLo E s.p (some obj))
  else
    let s := ({ s with fmax := true }).setHi E s.p (some obj)
    { s with p := if s.fmin || L.hardLo then s.mid else o.minfactor * s.p }

/-- calc.py:1764-1799: the same with a new start when the pressure becomes too low. -/
def reproduced (o : Opts K) (E : Env K) (L : Limits K) (s : St K) (obj : K) : St K :=
  if (sameFluid o E L s obj).p < o.pminAllowed then reset o E L (sameFluid o E L s obj) else sameFluid o E L s obj

/-- calc.py:1807-1814: the objective is positive. -/
def tooHigh (o : Opts K) (E : Env K) (s : St K) (obj : K) : St K :=
  let s := ({ s with fmax := true }).setHi E s.p (some obj)
  { s with p := (s.P1 - s.P0) * o.minfactor + s.P0 }

/-- calc.py:1747-1814: the given phase is a vapour; the flag says that the minimum is found.  An objective of zero changes
nothing. -/
def lowVapor (o : Opts K) (E : Env K) (L : Limits K) (s : St K) (φv : List (Option K)) : Except PyErr (St K × Bool) := do
  let (x, flag, obj) ← liquid E s.yi φv s.p
  let s := { s with yi := x, obj := some obj }
  if isTrivial o.xytol E.xi x && flag == some 2 then .ok (reproduced o E L s obj, false)
  else if obj < 0 then .ok (s.setLo E s.p (some obj), true)
  else if 0 < obj then .ok (tooHigh o E s obj, false)
  else .ok (s, false)

/-- calc.py:1819-1822: at the lower limit only a critical fluid is left to look for. -/
def atLimit (L : Limits K) (s : St K) : St K :=
  if L.hardLo && decide (s.p ≤ L.lo) then { s with critical := true, fmax := false } else s

/-- calc.py:1824-1845. -/
def wrongPhase (o : Opts K) (E : Env K) (L : Limits K) (s : St K) (obj : K) : St K :=
  if s.critical then upTo o E L.hardHi (({ s with fmin := true }).setLo E s.p (some obj))
  else downTo o E (s.fmin || L.hardLo) (({ s with fmax := true }).setHi E s.p (some obj))

/-- calc.py:1815-1845: the given phase is a liquid; `obj` is that of an earlier iteration, and unbound if there was none. -/
def lowLiquid (o : Opts K) (E : Env K) (L : Limits K) (s : St K) : Except PyErr (St K) :=
  match s.obj with
  | none => .error .unboundLocal
  | some obj => .ok (wrongPhase o E L (atLimit L s) obj)

/-- calc.py:1847-1855: the ends in order. -/
def ordered (o : Opts K) (E : Env K) (L : Limits K) (s : St K) : Except PyErr (St K) :=
  if s.P1 < s.P0 then
    if s.fmax && !s.fmin && !L.hardLo then .ok (s.setLo E (o.minfactor * s.P1) s.O1)
    else if !L.hardHi then .ok (s.setHi E (o.maxfactor * s.P0) s.O0)
    else .error .valueError
  else .ok s

/-- calc.py:1857-1858: a pressure outside a range that is bounded on both sides. -/
def clamp (E : Env K) (L : Limits K) (n : ℕ) (s : St K) : St K :=
  if (s.fmax || L.hardHi) && (s.fmin || L.hardLo) && (decide (s.p < s.P0) || decide (s.P1 < s.p))
  then { s with p := (s.P1 - s.P0) * E.rand n + s.P0 } else s

/-- calc.py:1860-1870. -/
def lowCheck (L : Limits K) (s : St K) : Except PyErr (St K) :=
  if L.hardLo && decide (L.lo = s.p) then .error .valueError
  else if s.p ≤ 0 then .error .valueError
  else .ok s

/-- calc.py:1745-1845: by the flag of the given phase. -/
def lowPhase (o : Opts K) (E : Env K) (L : Limits K) (s : St K) (φv : List (Option K)) (flag : ℕ) :
    Except PyErr (St K × Bool) :=
  if notVapor (some flag) then (lowLiquid o E L s).map fun s => (s, false) else lowVapor o E L s φv

/-- calc.py:1729-1870: one iteration of the first loop, `n` are left after it. -/
def lowStep (o : Opts K) (E : Env K) (L : Limits K) (n : ℕ) (s : St K) : Except PyErr (St K × Bool) := do
  let (φv, flag) ← E.liq s.p
  if φv.any (·.isNone) then .ok (downTo o E L.hardLo (({ s with fmax := true }).setHi E s.p none), false)
  else
    let (s', found) ← lowPhase o E L s φv flag
    if found then .ok (s', true)
    else do
      let s'' ← ordered o E L s'
      let s'' ← lowCheck L (clamp E L n s'')
      .ok (s'', false)

/-- calc.py:1726-1875: the first loop; the last iteration raises even if it found the minimum. -/
def lowLoop (o : Opts K) (E : Env K) (L : Limits K) : ℕ → St K → Except PyErr (St K)
  | 0, _ => .error .unboundLocal
  | n + 1, s => do
    let (s', found) ← lowStep o E L n s
    if n = 0 then .error .valueError
    else if found then .ok s'
    else lowLoop o E L n s'

/-- calc.py:1878-1881: an upper end above the lower one; line 1881 compares instead of assigning. -/
def between (E : Env K) (s : St K) : St K :=
  if s.P1 ≤ s.P0 then { s with P1 := keep E s (s.P0 * (11 / 10)) } else s

/-- calc.py:1936: the objective is more than a tenth below the previous one. -/
def falling (first : Bool) (obj : K) (prev : Option K) : Bool :=
  !first && prev.any fun q => decide (obj < 11 / 10 * q)

/-- calc.py:2026-2028: the objective has the same negative value at both ends; the slope is zero, the quotient plus
infinity, and so is the next pressure. -/
def endless (s : St K) : Bool :=
  match s.O0, s.O1 with
  | some O0, some O1 => decide (O1 = O0) && decide (O1 < 0) && decide (s.P1 ≠ s.P0)
  | _, _ => false

/-- calc.py:1931-2028: the objective is not positive.  When it falls, line 1952 negates a function.  What the equation of
state makes of an infinite pressure is not modelled; `other` stands for it. -/
def negative (o : Opts K) (E : Env K) (L : Limits K) (first : Bool) (objs : List (Option K)) (s : St K) (obj : K) :
    Except PyErr (High K) :=
  if falling first obj (objs.headD none) then .error .typeError
  else if L.hardHi then
    let s := s.setLo E s.p (some obj)
    .ok (.next { s with p := s.mid } (some obj :: objs))
  else
    let s := if s.P1 < s.p then s.setLo E s.P1 s.O1 else s
    let s := s.setHi E s.p (some obj)
    if endless s then .error .other
    else .ok (.next { s with p := extrapolate o s } (some obj :: objs))

/-- calc.py:1898-2028: one iteration of the second loop after the phases. -/
def highPhase (o : Opts K) (E : Env K) (L : Limits K) (first : Bool) (objs : List (Option K)) (s : St K) (flag : ℕ) (obj : K) :
    Except PyErr (High K) :=
  let s := if first then { s with O1 := some obj } else s
  if notVapor (some flag) then
    let s := ({ s with vapor := true }).setHi E s.p (some obj)
    .ok (.next { s with p := s.mid } objs)
  else if 0 < obj then
    let s := if s.P1 < s.p then s.setLo E s.P1 s.O1 else s
    .ok (.found ((s.setHi E s.p (some obj)).range false))
  else if s.vapor then
    let s := s.setLo E s.p (some obj)
    .ok (.next { s with p := s.mid } objs)
  else negative o E L first objs s obj

/-- calc.py:1891-2028: one iteration of the second loop. -/
def highStep (o : Opts K) (E : Env K) (L : Limits K) (first : Bool) (objs : List (Option K)) (s : St K) :
    Except PyErr (High K) := do
  let (φv, flag) ← E.liq s.p
  let (x, _, obj) ← liquid E s.yi φv s.p
  highPhase o E L first objs { s with yi := x, obj := some obj } flag obj

/-- calc.py:1887-2051: the second loop.  `none` is the pair of NaN; it is also what a range found in the last iteration
becomes.  The last branch (2043-2049), with the assignment of the module variable, cannot be reached. -/
def highLoop (o : Opts K) (E : Env K) (L : Limits K) : ℕ → Bool → List (Option K) → St K → Except PyErr (Option (Range K))
  | 0, _, _, _ => .error .unboundLocal
  | n + 1, first, objs, s => do
    match ← highStep o E L first objs s with
    | .found r => .ok (if n = 0 then none else some r)
    | .failed => .ok none
    | .skip s' objs' => if n = 0 then .ok none else highLoop o E L n false objs' s'
    | .next s' objs' => if n = 0 then .ok none else highLoop o E L n false objs' s'

/-- calc.py:1605-2051 `calc_Prange_yi`. -/
def search (o : Opts K) (E : Env K) (xi : List K) : Except PyErr (Option (Range K)) := do
  let L := limits o E
  let s ← lowLoop o E L o.maxiter (start L xi)
  let s := between E s
  highLoop o E L o.maxiter true [s.O1] { s with p := s.P1, vapor := false, fmin := false }

end Verif.DewRange
