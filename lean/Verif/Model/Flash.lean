import Mathlib.Algebra.Field.Defs
import Mathlib.Order.Defs.LinearOrder
import Mathlib.Algebra.Order.Group.Unbundled.Abs
import Verif.Basic.Py
import Verif.Basic.Ext

/-!
# Binary flash (thermodynamics/calc.py)

Numbers are elements of an ordered field.  The fugacity coefficients and the random numbers are
parameters.
-/

namespace Verif.Flash

variable {K : Type} [Field K] [LinearOrder K]

/-- calc.py:3589 and 3509: `np.sqrt(np.finfo(float).eps)`, which is exactly 2⁻²⁶. -/
def eps : K := 1 / 2 ^ 26

/-- calc.py:3592-3599: the range of the second K-value before the mole fraction constraints; neither
branch is taken for equal or NaN K-values. -/
def range0 (k0 k1 : Ext K) : Except PyErr (Ext K × Ext K) :=
  if Ext.lt k1 k0 then .ok (.fin eps, .fin 1)
  else if Ext.lt k0 k1 then .ok (.fin 1, .fin 100000000)
  else .error .unboundLocal

/-- calc.py:3605-3608: a first K-value on the wrong side of one is replaced. -/
def fixK0 (k0 k1 : Ext K) : Ext K :=
  if Ext.lt k1 k0 && Ext.lt k0 (.fin 1) then Ext.div (.fin 1) (.fin eps)
  else if Ext.lt k0 k1 && (Ext.lt (.fin 1) k0 || Ext.lt k0 (.fin 0)) then .fin eps
  else k0

/-- calc.py:3611 and 3632: the value of the second K-value at which the liquid fraction is `z`. -/
def boundX (z : K) (k0 : Ext K) : Ext K :=
  Ext.div (Ext.sub (.fin 1) (Ext.mul (.fin z) k0)) (.fin (1 - z))

/-- calc.py:3612 and 3633: the value of the second K-value at which the vapour fraction is `z`. -/
def boundY (z : K) (k0 : Ext K) : Ext K :=
  Ext.div (Ext.mul (.fin (1 - z)) k0) (Ext.sub k0 (.fin z))

/-- Append the second bound only when it is positive (calc.py:3616-3619 and so on). -/
def keepPos (b : Ext K) : List (Ext K) := if Ext.lt (.fin 0) b then [b] else []

/-- calc.py:3610-3650: the lists of lower and upper bounds beyond the first entries. -/
def bounds (m M : K) (k0 k1 : Ext K) : List (Ext K) × List (Ext K) :=
  if Ext.lt k1 k0 then
    (boundY M k0 :: keepPos (boundX M k0), boundY m k0 :: keepPos (boundX m k0))
  else if Ext.lt k0 k1 then
    (boundX m k0 :: keepPos (boundY m k0), boundX M k0 :: keepPos (boundY M k0))
  else ([], [])

/-- calc.py:3652-3658: whether the second K-value breaches a bound, and its replacement. -/
def resetK1 (u : K) (k1 lo hi : Ext K) (los his : List (Ext K)) : Ext K × Bool :=
  if (hi :: his).any (fun b => Ext.lt b k1) || (lo :: los).any (fun b => Ext.lt k1 b) then
    (Ext.add (Ext.mul (Ext.sub (Ext.pyMin hi his) (Ext.pyMax lo los)) (.fin u)) (Ext.pyMax lo los), true)
  else (k1, false)

/-- calc.py:3660 and 3451: the liquid mole fraction of the first component. -/
def liquid0 (k0 k1 : Ext K) : Ext K := Ext.div (Ext.sub (.fin 1) k1) (Ext.sub k0 k1)

/-- calc.py:3554-3678 `constrain_Ki`, with `u` the random number. -/
def constrainKi (m M u : K) (k : Ext K × Ext K) : Except PyErr ((Ext K × Ext K) × Bool) := do
  let r ← range0 k.1 k.2
  let k0 := fixK0 k.1 k.2
  if m < 0 ∨ 1 < m then throw .valueError
  if M < 0 ∨ 1 < M then throw .valueError
  let b := bounds m M k0 k.2
  let n := resetK1 u k.2 r.1 r.2 b.1 b.2
  let x0 := liquid0 k0 n.1
  let y0 := Ext.mul k0 x0
  if Ext.lt x0 (.fin m) || Ext.lt y0 (.fin m) then throw .valueError
  if Ext.lt (.fin M) x0 || Ext.lt (.fin M) y0 then throw .valueError
  return ((k0, n.1), n.2)

/-! ## The iteration -/

/-- Mole fractions of the two components. Used in calc.py:3451-3459. -/
abbrev Pair (K : Type) := K × K

/-- calc.py:3451-3459: liquid composition from K-values; a negative entry is replaced. -/
def liquidX (k : Pair K) : Pair K :=
  let x0 := (1 - k.2) / (k.1 - k.2)
  if x0 < 0 then (eps, 1 - eps)
  else if 1 - x0 < 0 then (1 - eps, eps)
  else (x0, 1 - x0)

/-- calc.py:3461-3469: vapour composition; the check for a sum away from one compares a truth value
with a small number and never raises, so every other sum is normalised. -/
def vaporY (k x : Pair K) : Pair K :=
  let y := (k.1 * x.1, k.2 * x.2)
  if y.1 + y.2 ≠ 1 then (y.1 / (y.1 + y.2), y.2 / (y.1 + y.2)) else y

/-- `k[i] = v`. Used in calc.py:3509-3516. -/
def setAt (k : Pair K) (i : ℕ) (v : K) : Pair K := if i = 0 then (v, k.2) else (k.1, v)

/-- calc.py:3509-3516: the K-values of restart `f`, `f` being 0 or 1. -/
def restart (f : ℕ) (k : Pair K) : Pair K :=
  let ind := 1 - f
  if f = 0 then setAt (setAt k ind eps) f (1 / eps)
  else setAt (setAt k ind (1 / eps)) f eps

/-- calc.py:3501, 3520 and 3531: position of the smallest positive K-value, `min` of an empty array
being an error; then the relative change there. -/
def relChange (new old : Pair K) : Except PyErr K :=
  if 0 < old.1 ∧ (old.1 ≤ old.2 ∨ ¬ 0 < old.2) then .ok (|new.1 - old.1| / old.1)
  else if 0 < old.2 then .ok (|new.2 - old.2| / old.2)
  else .error .valueError

/-- What the fugacity calculations at given liquid and vapour compositions give: the ratio of the
fugacity coefficients and the two phase flags. calc.py:3471-3475. -/
structure FugOut (K : Type) where
  k : Ext K × Ext K
  flagl : ℕ
  flagv : ℕ

/-- State of the loop, calc.py:3445-3447. -/
structure St (K : Type) where
  k : Pair K
  crit : ℕ
  reset : ℕ

/-- State after the loop: the compositions of the last iteration, its flags, the last error, and the
K-values before and after. Used in calc.py:3450-3528. -/
structure Out (K : Type) where
  x : Pair K
  y : Pair K
  flagl : ℕ
  flagv : ℕ
  err : K
  k : Pair K
  kprev : Pair K

/-- Both entries as numbers.  A NaN or an infinity in the constrained K-values makes the next
compositions NaN, which the model does not follow further; nor does it follow an infinite ratio of
fugacity coefficients. Used in calc.py:3450-3528. -/
def finite (k : Ext K × Ext K) : Except PyErr (Pair K) :=
  match k with
  | (.fin a, .fin b) => .ok (a, b)
  | _ => .error .other

/-- Settings of the flash. Used in calc.py:3450-3528. -/
structure Opts (K : Type) where
  m : K
  M : K
  tol : K
  maxiter : ℕ
  fug : Pair K → Pair K → Except PyErr (FugOut K)
  rand : ℕ → K

/-- calc.py:3450-3528: what one iteration leaves behind, and whether the loop is left. -/
def step (o : Opts K) (i : ℕ) (s : St K) : Except PyErr (Out K × St K × Bool) := do
  if s.k.1 = s.k.2 then throw .other  -- NaN compositions
  let x := liquidX s.k
  let y := vaporY s.k x
  let f ← o.fug x y
  let c ← constrainKi o.m o.M (o.rand i) f.k
  let kc ← finite c.1
  let kn ← finite f.k
  let err := |kn.1 - s.k.1| + |kn.2 - s.k.2|
  let reset := if c.2 then s.reset + 1 else s.reset
  if kn ≠ kc then
    if reset = 10 then
      return (⟨x, y, f.flagl, f.flagv, err, (kc.2, kc.1), s.k⟩, ⟨(kc.2, kc.1), s.crit, reset⟩, false)
    else if reset = 20 then
      let e ← relChange kc s.k
      return (⟨x, y, f.flagl, f.flagv, e, kc, s.k⟩, ⟨kc, s.crit, reset⟩, true)
    else return (⟨x, y, f.flagl, f.flagv, err, kc, s.k⟩, ⟨kc, s.crit, reset⟩, false)
  else if |s.k.1 - 1| < 1 / 1000000 ∧ |s.k.2 - 1| < 1 / 1000000 ∧ s.crit < 2 then
    -- the array is changed in place, and the previous K-values are the same array
    let k' := restart s.crit s.k
    return (⟨x, y, f.flagl, f.flagv, err, k', k'⟩,
      ⟨k', s.crit + 1, reset⟩, false)
  else if err < o.tol then
    let e ← relChange kn s.k
    if e < o.tol then return (⟨x, y, f.flagl, f.flagv, e, s.k, s.k⟩, ⟨s.k, s.crit, reset⟩, true)
    else return (⟨x, y, f.flagl, f.flagv, e, kn, s.k⟩, ⟨kn, s.crit, reset⟩, false)
  else return (⟨x, y, f.flagl, f.flagv, err, kn, s.k⟩, ⟨kn, s.crit, reset⟩, false)

/-- calc.py:3448-3528: the loop over the remaining `n` iterations, starting with iteration `i`. -/
def loop (o : Opts K) : ℕ → ℕ → St K → Except PyErr (Out K)
  | 0, _, _ => .error .unboundLocal  -- no iteration: `flagl` is never assigned
  | 1, i, s => do
    let r ← step o i s
    -- calc.py:3530-3533: after the last iteration the error is computed again
    let e ← relChange r.1.k r.1.kprev
    return { r.1 with err := e }
  | n + 2, i, s => do
    let r ← step o i s
    if r.2.2 then return r.1 else loop o (n + 1) (i + 1) r.2.1

/-- calc.py:3536-3542: whether the two phases are exchanged. -/
def switch (flagl flagv : ℕ) (x0 y0 : K) : Bool :=
  if flagl = 0 ∨ flagl = 4 ∨ flagv = 1 then
    if flagl = 1 ∨ flagv = 0 ∨ flagv = 4 then decide (y0 < x0) else true
  else false

/-- The returned tuple. Used in calc.py:3535-3551. -/
structure Result (K : Type) where
  x : Pair K
  flagl : ℕ
  y : Pair K
  flagv : ℕ
  err : K
  deriving DecidableEq

/-- calc.py:3535-3551: exchange and return. -/
def finish (r : Out K) : Result K :=
  if switch r.flagl r.flagv r.x.1 r.y.1 then ⟨r.y, r.flagv, r.x, r.flagl, r.err⟩
  else ⟨r.x, r.flagl, r.y, r.flagv, r.err⟩

/-- calc.py:3425-3438: the first K-values from the saturation pressures, NaN being replaced. -/
def firstK (P setP : K) (psat : Option K × Option K) : Ext K × Ext K :=
  (Ext.div (.fin (psat.1.getD setP)) (.fin P), Ext.div (.fin (psat.2.getD setP)) (.fin P))

/-- calc.py:3351-3551 `calc_flash`; `psat` are the saturation pressures of the two components, `none`
for NaN, `setP` the pressure replacing a NaN and `u` the random number of the first constraint. -/
def calcFlash (o : Opts K) (ncomp : ℕ) (P setP u : K) (psat : Option K × Option K) :
    Except PyErr (Result K) := do
  if ncomp ≠ 2 then throw .valueError
  let c ← constrainKi o.m o.M u (firstK P setP psat)
  let k ← finite c.1
  let r ← loop o o.maxiter 0 ⟨k, 0, 0⟩
  return finish r

end Verif.Flash
