import Mathlib.Algebra.Field.Defs
import Mathlib.Order.Defs.LinearOrder

/-!
# numpy scalars: a number, an infinity or NaN

Element-wise arithmetic of numpy does not raise: dividing by zero gives an infinity or NaN and a
warning.  `Ext K` adds these values to an ordered field.  Negative zero is not represented: dividing
by it would flip the sign of the infinity.
-/

namespace Verif

/-- A numpy floating point scalar. -/
inductive Ext (K : Type) where
  | fin (a : K)
  | pinf
  | ninf
  | nan
  deriving DecidableEq

namespace Ext

variable {K : Type} [Field K] [LinearOrder K]

/-- The infinity with the sign of a number, NaN for zero. -/
def signInf (a : K) : Ext K := if 0 < a then .pinf else if a < 0 then .ninf else .nan

/-- Negation of a numpy scalar; no single place of the repository, numpy semantics for all models. -/
def neg : Ext K → Ext K
  | .fin a => .fin (-a)
  | .pinf => .ninf
  | .ninf => .pinf
  | .nan => .nan

/-- Addition; opposite infinities give NaN. -/
def add : Ext K → Ext K → Ext K
  | .fin a, .fin b => .fin (a + b)
  | .nan, _ => .nan
  | _, .nan => .nan
  | .pinf, .ninf => .nan
  | .ninf, .pinf => .nan
  | .pinf, _ => .pinf
  | _, .pinf => .pinf
  | .ninf, _ => .ninf
  | _, .ninf => .ninf

/-- Subtraction, e.g. calc.py:1543. -/
def sub (a b : Ext K) : Ext K := add a (neg b)

/-- Multiplication; an infinity times zero gives NaN. -/
def mul : Ext K → Ext K → Ext K
  | .fin a, .fin b => .fin (a * b)
  | .nan, _ => .nan
  | _, .nan => .nan
  | .pinf, .fin b => signInf b
  | .fin b, .pinf => signInf b
  | .ninf, .fin b => neg (signInf b)
  | .fin b, .ninf => neg (signInf b)
  | .pinf, .pinf => .pinf
  | .ninf, .ninf => .pinf
  | _, _ => .ninf

/-- Division; zero by zero gives NaN, e.g. calc.py:1543-1545. -/
def div : Ext K → Ext K → Ext K
  | .fin a, .fin b => if b = 0 then signInf a else .fin (a / b)
  | .nan, _ => .nan
  | _, .nan => .nan
  | .fin _, _ => .fin 0
  | .pinf, .fin b => if b < 0 then .ninf else .pinf
  | .ninf, .fin b => if b < 0 then .pinf else .ninf
  | _, _ => .nan

/-- Comparison with `<`; every comparison with NaN is false. -/
def lt : Ext K → Ext K → Bool
  | .fin a, .fin b => decide (a < b)
  | .nan, _ => false
  | _, .nan => false
  | .ninf, .ninf => false
  | .ninf, _ => true
  | _, .ninf => false
  | .pinf, _ => false
  | .fin _, .pinf => true

/-- Python's `min` of a non-empty list: the first entry, replaced by every later entry below it. -/
def pyMin (a : Ext K) (l : List (Ext K)) : Ext K := l.foldl (fun m x => if lt x m then x else m) a

/-- Python's `max` of a non-empty list. -/
def pyMax (a : Ext K) (l : List (Ext K)) : Ext K := l.foldl (fun m x => if lt m x then x else m) a

end Ext

end Verif
