import Verif.Model.SolveRoot

/-! # Specification for C03: when a solver may be run -/

namespace Verif.Spec
open Verif.SolveRoot

/-- The methods documented as supported, and the solvers scipy offers that need a starting point. -/
def Bracketing (m : Meth) : Prop := m = .brentq ∨ m = .bisect

/-- A solver call whose prerequisites are met: a bracketing solver gets a scalar problem and two
numeric end points, any other solver gets a starting point. -/
def Applicable {ν : Type} (c : Call ν) : Prop :=
  (Bracketing c.solver → c.guess.size ≤ 1 ∧
      ∃ lo hi r, c.bounds = some ([Item.num lo, Item.num hi] :: r)) ∧
  (¬ Bracketing c.solver → c.guess ≠ .none)

/-- Well-formed bounds: one pair of numbers. -/
def onePair {ν : Type} (lo hi : ν) (isTuple : Bool) : Bounds ν :=
  .seq (!isTuple) [.num lo, .num hi]

/-- Well-formed bounds: a python list (or array) of pairs of numbers. -/
def pairList {ν : Type} (l : List (ν × ν)) : Bounds ν :=
  .seq true (l.map (fun p => .seq [some p.1, some p.2]))

end Verif.Spec
