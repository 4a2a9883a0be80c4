import Verif.Basic.Py

/-!
# `despasito/utils/general_toolbox.py`: input length checking and defaults

Simplifications: conversion to a float array (`np.array(..., float)`) is the identity, an entry of a
dictionary is either a scalar or an array of rows, the type of rows is arbitrary (numbers, or
compositions for two-dimensional arrays).
-/

namespace Verif.Toolbox
open Verif

/-- An input value: a python scalar, or something with a first axis (list, tuple, array).
Used in general_toolbox.py:269-294. -/
inductive Arg (α : Type) where
  | scalar (a : α)
  | arr (rows : List α)
  deriving DecidableEq, Repr

/-- general_toolbox.py:269-294 `isiterable`: true exactly when `np.shape` is non-empty. -/
def Arg.isiterable {α : Type} : Arg α → Bool
  | .scalar _ => false
  | .arr _ => true

/-- general_toolbox.py:326-331: the length contributed by one entry when the common length is
being determined (`len(tmp)` for an array, 1 for a scalar). -/
def Arg.len {α : Type} : Arg α → Nat
  | .scalar _ => 1
  | .arr l => l.length

/-- general_toolbox.py:323-334: `lx_array` for the keys that are present. -/
def lxArray {κ α : Type} [DecidableEq κ] (d : PyDict κ (Arg α)) : List κ → List Nat
  | [] => []
  | k :: ks => match d.get? k with
    | some v => v.len :: lxArray d ks
    | none => lxArray d ks

/-- Python's `max` of a non-empty list. Used in general_toolbox.py:323-334. -/
def maxList : List Nat → Nat
  | [] => 0
  | a :: l => max a (maxList l)

/-- general_toolbox.py:323-334: the target length: the requested one, or the maximum over present
keys, or `ValueError` when no key is present. -/
def targetLength {κ α : Type} [DecidableEq κ] (d : PyDict κ (Arg α)) (keys : List κ)
    (lx : Option Nat) : Except PyErr Nat :=
  match lx with
  | some n => .ok n
  | none =>
    let a := lxArray d keys
    if a.isEmpty then .error .valueError else .ok (maxList a)

/-- general_toolbox.py:339-349: one entry brought to length `lx`. -/
def expand {α : Type} (lx : Nat) : Arg α → Except PyErr (List α)
  | .scalar a => .ok ((List.range lx).map (fun _ => a))
  | .arr l =>
    match l with
    | [a] => .ok ((List.range lx).map (fun _ => a))
    | _ => if l.length = lx then .ok l else .error .valueError

/-- general_toolbox.py:336-351: the loop over `keys` filling `new_dictionary`. -/
def fillLoop {κ α : Type} [DecidableEq κ] (d : PyDict κ (Arg α)) (lx : Nat) :
    List κ → PyDict κ (List α) → Except PyErr (PyDict κ (List α))
  | [], acc => .ok acc
  | k :: ks, acc =>
    match d.get? k with
    | none => fillLoop d lx ks acc
    | some v =>
      match expand lx v with
      | .error e => .error e
      | .ok rows => fillLoop d lx ks (acc.set k rows)

/-- general_toolbox.py:297-351 `check_length_dict`. -/
def checkLengthDict {κ α : Type} [DecidableEq κ] (d : PyDict κ (Arg α)) (keys : List κ)
    (lx : Option Nat) : Except PyErr (PyDict κ (List α)) :=
  match targetLength d keys lx with
  | .error e => .error e
  | .ok n => fillLoop d n keys PyDict.empty

/-- The `keys` argument of `set_defaults`: one key or a list of keys. Used in general_toolbox.py:380-394. -/
inductive KeyArg (κ : Type) where
  | one (k : κ)
  | many (ks : List κ)

/-- The `values` argument of `set_defaults`: one scalar default, or a list of defaults each of which
is a scalar or an array. Used in general_toolbox.py:380-394. -/
inductive ValArg (α : Type) where
  | one (v : α)
  | many (vs : List (Arg α))

/-- general_toolbox.py:380-394: pair up keys and defaults. -/
def pairDefaults {κ α : Type} : KeyArg κ → ValArg α → Except PyErr (List (κ × Arg α))
  | .many ks, .one v => .ok (ks.map (fun k => (k, .scalar v)))
  | .one k, .one v => .ok [(k, .scalar v)]
  | .many ks, .many vs => if ks.length ≠ vs.length then .error .valueError else .ok (ks.zip vs)
  | .one k, .many vs =>
    match vs with
    | [v] => .ok [(k, v)]
    | _ => .error .valueError

/-- general_toolbox.py:398-402: the value stored for a missing key. -/
def defaultFor {α : Type} (lx : Option Nat) (v : Arg α) : Arg α :=
  match v, lx with
  | .scalar a, some n => .arr (List.replicate n a)
  | v, _ => v

/-- general_toolbox.py:396-405: the loop over the keys; membership is tested in the *original*
dictionary. -/
def defaultsLoop {κ α : Type} [DecidableEq κ] (d : PyDict κ (Arg α)) (lx : Option Nat) :
    List (κ × Arg α) → PyDict κ (Arg α) → PyDict κ (Arg α)
  | [], acc => acc
  | (k, v) :: r, acc =>
    if d.contains k then defaultsLoop d lx r acc
    else defaultsLoop d lx r (acc.set k (defaultFor lx v))

/-- general_toolbox.py:354-405 `set_defaults`. -/
def setDefaults {κ α : Type} [DecidableEq κ] (d : PyDict κ (Arg α)) (keys : KeyArg κ)
    (values : ValArg α) (lx : Option Nat) : Except PyErr (PyDict κ (Arg α)) :=
  match pairDefaults keys values with
  | .error e => .error e
  | .ok l => .ok (defaultsLoop d lx l d)

end Verif.Toolbox
