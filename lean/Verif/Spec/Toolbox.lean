import Verif.Model.Toolbox

/-!
# Specification for C01 and C02: what "brought to a common length" means

Only the type `Arg` of inputs is shared with the model.
-/

namespace Verif.Spec
open Verif.Toolbox (Arg)

/-- The number of rows a user gave. -/
def rowsGiven {α : Type} : Arg α → Nat
  | .scalar _ => 1
  | .arr l => l.length

/-- `out` is what the user's input `a` means over `n` points: a single value applies to every
point, otherwise there is one row per point. -/
inductive Broadcast {α : Type} (n : Nat) : Arg α → List α → Prop
  | scalar (a : α) : Broadcast n (.scalar a) (List.replicate n a)
  | single (a : α) : Broadcast n (.arr [a]) (List.replicate n a)
  | full (l : List α) (h : l.length = n) (h1 : n ≠ 1) : Broadcast n (.arr l) l

/-- `n` is the number of points of a calculation: the one requested, or the largest number of rows
among the inputs that were given. -/
def IsPointCount {κ α : Type} (given : κ → Option (Arg α)) (keys : List κ) (lx : Option Nat)
    (n : Nat) : Prop :=
  match lx with
  | some m => n = m
  | none => (∃ k ∈ keys, ∃ a, given k = some a ∧ rowsGiven a = n) ∧
            ∀ k ∈ keys, ∀ a, given k = some a → rowsGiven a ≤ n

/-- An input that fits a calculation over `n` points. -/
def Fits {α : Type} (n : Nat) (a : Arg α) : Prop := rowsGiven a = 1 ∨ rowsGiven a = n

/-- A default over the points: a scalar default applies to every point when the number of points is
known; anything else is taken as given. -/
def defaultOver {α : Type} : Option Nat → Arg α → Arg α
  | some n, .scalar a => .arr (List.replicate n a)
  | some _, .arr l => .arr l
  | none, v => v

end Verif.Spec
