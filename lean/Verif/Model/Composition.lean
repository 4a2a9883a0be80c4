import Mathlib.Algebra.Order.Group.Unbundled.Abs
import Verif.Model.PhaseDensity

/-!
# `despasito/thermodynamics/calc.py:2054-2858`: the loops that find the composition of a phase

Numbers are elements of a linearly ordered field, `none` is NaN.  The fugacity coefficients of the phase
that is sought (`fug`, from a composition to coefficients and flag), random numbers, splines and scipy's
`least_squares` are parameters.  A composition whose entries add up to zero cannot be normalised; the
calculation with the NaN entries that numpy makes of it raises `ValueError` in
`pressure_vs_volume_arrays` (calc.py:93-94), which is where it is put here.
-/

namespace Verif.Composition
open Verif Verif.PhaseDensity

variable {K : Type} [Field K] [LinearOrder K]

/-- Fugacity coefficients and flag of a composition. Used in calc.py:2641-2701. -/
abbrev Fug (K : Type) := List K → Except PyErr (List (Option K) × ℕ)

/-- `y / np.sum(y)`. Used in calc.py:2120-2166, 2313-2357. -/
def normalise (y : List K) : Except PyErr (List K) :=
  if y.sum = 0 then .error .valueError else .ok (y.map (· / y.sum))

/-- The smallest positive entry, `min(y[y > 0])`. Used in calc.py:2197-2198, 2368-2370. -/
def minPos : List K → Option K
  | [] => none
  | a :: r =>
    match minPos r with
    | none => if 0 < a then some a else none
    | some m => if 0 < a ∧ a < m then some a else some m

/-- calc.py:2197-2198, 2368-2370: the relative change of the entry that is smallest in `old`.  A test of this
array fails with `ValueError` unless the smallest entry is unique. -/
def smallestChange (old new : List K) : Except PyErr K :=
  match minPos old with
  | none => .error .valueError
  | some m =>
    match (old.zip new).filter fun p => p.1 = m with
    | [p] => .ok (|p.2 - p.1| / p.1)
    | _ => .error .valueError

/-- calc.py:2127, 2320: two components, both present. -/
def isBinary (y : List K) : Bool := y.length == 2 && y.all (· ≠ 0)

/-- calc.py:2144, 2337: `np.sum(np.abs(x - y) / x) < tol_trivial`; a zero entry gives NaN or infinity. -/
def isTrivial (tolTrivial : K) (x y : List K) : Bool :=
  x.all (· ≠ 0) && decide ((List.zipWith (fun a b => |a - b| / a) x y).sum < tolTrivial)

/-- External calls and options. Used in calc.py:2120-2166, 2313-2357. -/
structure Env (K : Type) where
  fug : Fug K
  /-- `find_new_yi`, `find_new_xi`; `none` for a pair of NaN. -/
  findNew : Except PyErr (Option (List K))
  /-- The normalised random composition of iteration `z`, counted from the end. -/
  rand : ℕ → List K
  /-- `bracket_bounding_yi` between two mole fractions. -/
  bracket : K → K → Except PyErr (List K)
  /-- `spo.least_squares(objective_find_.i, x0, bounds=(0, 1)).x[0]` -/
  leastSquares : K → Except PyErr K
  /-- `objective_find_.i` -/
  objective : List K → Except PyErr (Option K)
  maxiter : ℕ
  tol : K
  tolTrivial : K

/-- The variables that live across iterations; the totals are newest first. Used in calc.py:2120-2166, 2313-2357. -/
structure State (K : Type) where
  y : List K
  totals : List K
  check : Bool
  trivial : Bool

/-- What an iteration proposes: the trial composition, its coefficients and flag, and the new mole numbers.
Used in calc.py:2120-2166, 2313-2357. -/
structure Trial (K : Type) where
  tmp : List K
  φ : List (Option K)
  flag : ℕ
  new : List K

/-- calc.py:2120-2166, 2313-2357: one trial.  `other` is the composition of the given phase with the coefficients
`φo`; `noPhase` says that the flag excludes the phase sought.  The result is `none` for a NaN composition, together with the two
flags. -/
def propose (ph : Phase) (noPhase : ℕ → Bool) (E : Env K) (other : List K) (φo : List (Option K)) (n : ℕ) (s : State K) :
    Except PyErr (Option (Trial K) × Bool × Bool) := do
  let newOf (φ : List (Option K)) : Except PyErr (List K) :=
    if ph = .vapor then newMoleFractions .vapor other φo φ else newMoleFractions .liquid other φ φo
  let tmp ← normalise s.y
  let (φ, flag) ← E.fug tmp
  if (φ.any (·.isNone) || noPhase flag) && s.check then
    if isBinary tmp then
      match ← E.findNew with
      | none => .ok (none, false, false)
      | some t =>
        let (φ', flag') ← E.fug t
        let new ← newOf φ'
        .ok (some ⟨t, φ', flag', new⟩, false, false)
    else .ok (some ⟨tmp, φ, flag, s.y⟩, false, s.trivial)
  else if isTrivial E.tolTrivial other tmp && s.trivial then
    let bin := isBinary tmp
    match ← (if bin then E.findNew else .ok (some (E.rand n))) with
    | none => .ok (none, s.check && !bin, false)
    | some t =>
      let (φ', flag') ← E.fug t
      let new ← newOf φ'
      .ok (some ⟨t, φ', flag', new⟩, s.check && !bin, false)
  else
    let new ← newOf φ
    .ok (some ⟨tmp, φ, flag, new⟩, s.check, s.trivial)

/-- calc.py:2174-2176: the sum bounces between two values. -/
def bouncing (total : K) : List K → Bool
  | t0 :: t1 :: t2 :: _ :: _ => decide (|total - t1| + |t0 - t2| < |total - t0|)
  | _ => false

/-- The variables after the loop of `calc_vapor_composition`. Used in calc.py:2118-2211. -/
structure After (K : Type) where
  trial : Trial K
  y2 : List K
  φ2 : List (Option K)
  flag2 : ℕ
  last : Bool

/-- calc.py:2118-2211: the vapour loop; `none` when it was left with a NaN composition. -/
def vaporLoop (E : Env K) (xi : List K) (φl : List (Option K)) : ℕ → State K → Except PyErr (Option (After K))
  | 0, _ => .error .unboundLocal
  | n + 1, s => do
    let (t?, check, trivial) ← propose .vapor (· == 1) E xi φl n s
    match t? with
    | none => .ok none
    | some t =>
      let y2 ← normalise t.new
      let (φ2, flag2) ← E.fug y2
      let last := n == 0
      if bouncing t.new.sum s.totals && t.flag != flag2 then
        match t.tmp, y2 with
        | a :: _, b :: _ =>
          let y2' ← E.bracket (min a b) (max a b)
          let (φ2', flag2') ← E.fug y2'
          .ok (some ⟨t, y2', φ2', flag2', last⟩)
        | _, _ => .error .indexError
      else
        let total0 := s.totals.headD 0
        let conv ← (if |t.new.sum - total0| < E.tol then
          (smallestChange t.tmp y2).map fun c => decide (c < E.tol) else .ok false)
        if conv || last then .ok (some ⟨t, y2, φ2, flag2, last⟩)
        else vaporLoop E xi φl n ⟨t.new, t.new.sum :: s.totals, check, trivial⟩

/-- The result: composition, coefficients (`none` for NaN) and flag (`none` for NaN). Used in calc.py:2213-2243. -/
abbrev Result (K : Type) := List K × List (Option K) × Option ℕ

/-- calc.py:2213-2243: after the vapour loop. -/
def vaporFinish (E : Env K) : Option (After K) → Except PyErr (Result K)
  | none => .error .valueError
  | some a =>
    match minPos a.trial.tmp with
    | none => .error .valueError
    | some _ =>
      if a.trial.flag = 3 then do
        let y ← normalise a.trial.new
        .ok (y, a.trial.tmp.map fun _ => none, none)
      else if a.last then do
        let y ← normalise a.trial.new
        let c ← smallestChange a.trial.tmp y
        let y ← (if 1 < 10 * c then do
          match ← E.findNew with
          | none => .error .valueError
          | some t => normalise t
          else .ok y)
        match y with
        | [] => .error .indexError
        | b :: _ =>
          let y1 ← E.leastSquares b
          let (φ, flag) ← E.fug [y1, 1 - y1]
          let o ← E.objective [y1, 1 - y1]
          if o.any (E.tol < ·) then .ok ([y1, 1 - y1], a.trial.tmp.map fun _ => none, some 3)
          else .ok ([y1, 1 - y1], φ, some flag)
      else .ok (a.y2, a.φ2, some a.flag2)

/-- calc.py:2054-2245 `calc_vapor_composition`. -/
def vaporComposition (E : Env K) (yi xi : List K) (φl : List (Option K)) : Except PyErr (Result K) :=
  if φl.any (·.isNone) then .error .valueError
  else do
    let y ← normalise yi
    let a ← vaporLoop E xi φl E.maxiter ⟨y, [yi.sum], true, true⟩
    vaporFinish E a

/-- calc.py:2311-2382: the liquid loop; the flag says whether the last iteration was reached. -/
def liquidLoop (E : Env K) (yi : List K) (φv : List (Option K)) : ℕ → State K → Except PyErr (Option (Trial K × Bool))
  | 0, _ => .error .unboundLocal
  | n + 1, s => do
    let (t?, check, trivial) ← propose .liquid (fun f => f == 0 || f == 4) E yi φv n s
    match t? with
    | none => .ok none
    | some t =>
      let last := n == 0
      let total0 := s.totals.headD 0
      let conv ← (if |t.new.sum - total0| < E.tol then do
        let x2 ← normalise t.new
        (smallestChange t.tmp x2).map fun c => decide (c < E.tol) else .ok false)
      if conv || last then .ok (some (t, last))
      else liquidLoop E yi φv n ⟨t.new, t.new.sum :: s.totals, check, trivial⟩

/-- calc.py:2384-2406: after the liquid loop. -/
def liquidFinish (E : Env K) : Option (Trial K × Bool) → Except PyErr (Result K)
  | none => .error .valueError
  | some (t, last) => do
    let x2 ← normalise t.new
    match minPos t.tmp with
    | none => .error .valueError
    | some _ =>
      if last then
        let c ← smallestChange t.tmp x2
        let x ← (if 1 < 10 * c then do
          match ← E.findNew with
          | none => .error .valueError
          | some u => .ok u
          else .ok t.new)
        match x with
        | [] => .error .indexError
        | b :: _ =>
          let x1 ← E.leastSquares b
          let _ ← E.objective [x1, 1 - x1]
          .ok ([x1, 1 - x1], t.φ, some t.flag)
      else .ok (t.tmp, t.φ, some t.flag)

/-- calc.py:2248-2406 `calc_liquid_composition`. -/
def liquidComposition (E : Env K) (xi yi : List K) (φv : List (Option K)) : Except PyErr (Result K) :=
  if φv.any (·.isNone) then .error .valueError
  else do
    let x ← normalise xi
    let a ← liquidLoop E yi φv E.maxiter ⟨x, [x.sum], true, true⟩
    liquidFinish E a

/-- calc.py:2641-2701 `objective_find_yi` with the flag; the sum zero makes the new composition NaN. -/
def objectiveVapor (fug : Fug K) (xi : List K) (φl : List (Option K)) (yi : List K) : Except PyErr (Option K × ℕ) := do
  let y ← normalise yi
  let (φv, flag) ← fug y
  let new ← newMoleFractions .vapor xi φl φv
  if new.sum = 0 then .ok (none, flag)
  else do
  let y2 ← normalise new
  let (φ2, _) ← fug y2
  if φ2.any (·.isNone) then .ok (none, flag)
  else .ok (some (List.zipWith (fun (a : K) (p : K × K × K) => |a - p.1 * p.2.1 / p.2.2|) new
    (xi.zip ((φl.map (·.getD 0)).zip (φ2.map (·.getD 0))))).sum, flag)

/-- calc.py:2798-2858 `objective_find_xi` with the flag; the sum zero makes the new composition NaN.  The last line multiplies by the trial
composition `xi`. -/
def objectiveLiquid (fug : Fug K) (yi : List K) (φv : List (Option K)) (xi : List K) : Except PyErr (Option K × ℕ) := do
  let x ← normalise xi
  let (φl, flag) ← fug x
  let new ← newMoleFractions .liquid yi φl φv
  if new.sum = 0 then .ok (none, flag)
  else do
  let x2 ← normalise new
  let (φ2, _) ← fug x2
  if φ2.any (·.isNone) then .ok (none, flag)
  else .ok (some (List.zipWith (fun (a : K) (p : K × K × K) => |a - p.1 * p.2.1 / p.2.2|) new
    (x.zip ((φv.map (·.getD 0)).zip (φ2.map (·.getD 0))))).sum, flag)

end Verif.Composition
