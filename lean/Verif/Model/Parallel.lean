import Verif.Basic.Py

/-!
# `despasito/utils/parallelization.py`: running a batch of jobs

Job functions are arbitrary functions that return a tuple of results or raise.  A result of a job is
a number or a one-dimensional array (`Cell`).  Logging (lines 68-112, 168-185) is not modelled.
-/

namespace Verif.Parallel
open Verif

/-- One quantity returned by a job. Used in parallelization.py:164-166. -/
inductive Cell (ν : Type) where
  | scal (v : ν)
  | vec (l : List ν)
  deriving DecidableEq, Repr

/-- parallelization.py:33-50 `__init__`: number of workers and whether a pool is used. -/
def initCores (cpuCount : Nat) (ncores : Int) : Except PyErr (Nat × Bool) :=
  if ncores = -1 then .ok (cpuCount, true)
  else if ncores > 1 then .ok (ncores.toNat, true)
  else if ncores = 1 then .ok (1, false)
  else .error .valueError

section
variable {α β : Type}

/-- The `i`-th chunk of tasks handed to a worker by `Pool.map` with chunk size `c`.
Called in parallelization.py:133; the chunk size of `multiprocessing`. -/
def chunkAt (c : Nat) (inputs : List α) (i : Nat) : List α := (inputs.drop (i * c)).take c

/-- Number of chunks. Called in parallelization.py:133. -/
def numChunks (c : Nat) (inputs : List α) : Nat := (inputs.length + c - 1) / c

/-- A worker runs the tasks of a chunk in order and stops at the first exception.
Used in parallelization.py:141-166. -/
def runChunk (f : α → Except PyErr β) : List α → Except PyErr (List β)
  | [] => .ok []
  | x :: r =>
    match f x with
    | .error e => .error e
    | .ok b =>
      match runChunk f r with
      | .error e => .error e
      | .ok bs => .ok (b :: bs)

/-- Slice assignment `value[s : s + len(r)] = r`. Called in parallelization.py:133. -/
def splice (v : List (Option β)) (s : Nat) (r : List β) : List (Option β) :=
  v.take s ++ r.map some ++ v.drop (s + r.length)

/-- Arrival of the result of chunk `i` (`multiprocessing.pool.MapResult._set`): the values are
stored in their slots; the first exception to *arrive* is kept. Used in parallelization.py:133. -/
def arrive (f : α → Except PyErr β) (c : Nat) (inputs : List α)
    (st : Except PyErr (List (Option β))) (i : Nat) : Except PyErr (List (Option β)) :=
  match st with
  | .error e => .error e
  | .ok v =>
    match runChunk f (chunkAt c inputs i) with
    | .error e => .error e
    | .ok r => .ok (splice v (i * c) r)

/-- `Pool.map(func, inputs)` used at parallelization.py:133, for chunk size `c` and order of arrival
`σ` of the chunks. -/
def poolMap (f : α → Except PyErr β) (c : Nat) (inputs : List α) (σ : List Nat) :
    Except PyErr (List (Option β)) :=
  σ.foldl (arrive f c inputs) (.ok (List.replicate inputs.length none))

end

section
variable {α ν : Type}

/-- Column `b` of a list of rows. Used in parallelization.py:164-166. -/
def column (rows : List (List (Cell ν))) (b : Nat) : List (Cell ν) := rows.filterMap (·[b]?)

/-- `zip(*rows)`: columns up to the length of the shortest row. Used in parallelization.py:114-139. -/
def zipStar (rows : List (List (Cell ν))) : List (List (Cell ν)) :=
  match (rows.map List.length).min? with
  | none => []
  | some k => (List.range k).map (column rows)

/-- Length of the cell when it is an array. Used in parallelization.py:164-166. -/
def Cell.vecLen? : Cell ν → Option Nat
  | .scal _ => none
  | .vec l => some l.length

/-- Entry `a` of a cell that is an array. Used in parallelization.py:164-166. -/
def Cell.entry? (a : Nat) : Cell ν → Option ν
  | .scal _ => none
  | .vec l => l[a]?

/-- `np.transpose(np.array(rows, dtype=object))`, parallelization.py:164-166, as the sequence of its
entries along the first axis.  numpy makes a three-dimensional array when all cells of all rows are
arrays of one common length; rows of different lengths stay a one-dimensional array of rows. -/
def npTranspose (rows : List (List (Cell ν))) : List (List (Cell ν)) :=
  match rows with
  | [] => []
  | r :: _ =>
    if ∀ r' ∈ rows, r'.length = r.length then
      match r with
      | [] => []
      | c :: _ =>
        match c.vecLen? with
        | some m =>
          if ∀ r' ∈ rows, ∀ c' ∈ r', c'.vecLen? = some m then
            (List.range m).map fun a => (List.range r.length).map fun b =>
              Cell.vec ((column rows b).filterMap (Cell.entry? a))
          else (List.range r.length).map (column rows)
        | none => (List.range r.length).map (column rows)
    else rows

/-- parallelization.py:141-166 `serial_job`. -/
def serialJob (f : α → Except PyErr (List (Cell ν))) (inputs : List α) :
    Except PyErr (List (List (Cell ν))) :=
  match runChunk f inputs with
  | .error e => .error e
  | .ok rows => .ok (npTranspose rows)

/-- parallelization.py:114-139 `pool_job`; `σ` is the order of arrival of the chunks of size `c`.
`zip` over a row that is still `None` would be a `TypeError`. -/
def poolJob (useMp : Bool) (f : α → Except PyErr (List (Cell ν))) (c : Nat) (inputs : List α)
    (σ : List Nat) : Except PyErr (List (List (Cell ν))) :=
  if useMp then
    match poolMap f c inputs σ with
    | .error e => .error e
    | .ok v => if v.all Option.isSome then .ok (zipStar (v.filterMap id)) else .error .typeError
  else serialJob f inputs

end

end Verif.Parallel
