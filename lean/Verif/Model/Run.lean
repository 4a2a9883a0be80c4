import Verif.Model.Dispatch

/-!
# A run and its processes: `main.py`, `__main__.py`, `utils/parallelization.py`

The run of an input file from reading to the output file, with the log files of the processes of the pool and their
logging levels.

Simplifications: reading, the construction of equations of state, the calculation and the fit are parameters; a file is the list of
messages in it; messages are opaque; the processes write to their files only while they work on a job.
-/

namespace Verif.Run
open Verif

/-! ### Logging levels -/

/-- A handler: its file (`baseFilename`), if it writes to one, its level, and the format of its formatter, if it has one.
parallelization.py:72-75. -/
structure Handler where
  file : Option String
  level : Nat
  format : Option String
  deriving DecidableEq, Repr

/-- The loop over the handlers of the root logger: the last one with a file counts; no formatter is an `AttributeError`.
parallelization.py:72-75 and 243-246. -/
def scanRoot : List Handler → Option (Nat × String) → Except PyErr (Option (Nat × String))
  | [], r => .ok r
  | h :: hs, r =>
    match h.file with
    | none => scanRoot hs r
    | some _ => match h.format with
      | none => .error .attributeError
      | some f => scanRoot hs (some (h.level, f))

/-- `_extract_root_logging`: level and format for the processes, none if there is none. parallelization.py:69-79. -/
def extractRoot (root : List Handler) : Except PyErr (Option (Nat × String)) := scanRoot root none

/-- The level of the logger of the package in a process of the pool: 30 from importing the package (__init__.py:13), replaced
by `_initialize_mp_handler`, parallelization.py:103-112. -/
def workerLevel (extracted : Option (Nat × String)) : Nat :=
  match extracted with
  | none => 30
  | some (l, _) => l

/-- The handlers of the root logger and of the logger of the package, and the level of the latter. Used in
__main__.py:22-40. -/
structure Loggers where
  root : List Handler
  package : List Handler
  level : Nat

/-- The format of the log file, __main__.py:30. -/
def fileFormat : String := "%(asctime)s [%(levelname)s](%(name)s:%(funcName)s:%(lineno)d): %(message)s"

/-- `__main__.py:22-42`: the handlers are those of the package; `logging.info` gives the root logger a handler that writes to
the console. The name of the log file is `None` for the flag `--log` without a name (main.py:52-58), and `os.path.isfile`
then raises a `TypeError`. -/
def setUp (logFile : Option String) (verbose : Nat) (console : Bool) : Except PyErr Loggers :=
  match logFile with
  | none => .error .typeError
  | some f =>
    .ok { root := [⟨none, 0, some "%(levelname)s:%(name)s:%(message)s"⟩]
          package := ⟨some f, Dispatch.level verbose, some fileFormat⟩ ::
            (if console then [⟨none, Dispatch.level verbose, some "[%(levelname)s](%(name)s): %(message)s"⟩] else [])
          level := Dispatch.level verbose }

/-- The flag `--log`: not given, given without, and with a name. main.py:52-58. -/
inductive LogFlag where
  | absent
  | bare
  | named (s : String)
  deriving DecidableEq

/-- main.py:52-58: `nargs="?"` without a constant. -/
def LogFlag.parsed : LogFlag → Option String
  | .absent => some "despasito.log"
  | .bare => none
  | .named s => some s

/-- `batch_jobs` up to the pool: the handlers of the root logger afterwards, and the level and format, which are unbound
variables if there is no handler with a file. parallelization.py:239-249. -/
def batchStart (root : List Handler) : Except PyErr (Nat × String) × List Handler :=
  match scanRoot root none with
  | .error e => (.error e, root)
  | .ok none => (.error .unboundLocal, [])
  | .ok (some r) => (.ok r, [])

/-! ### Log files of the processes -/

variable {M : Type}

/-- The files of the processes and the what the main process hands to its log (number of the process, messages).
Used in parallelization.py:168-178. -/
structure Logs (M : Type) where
  files : PyDict String (List M)
  main : List (Nat × List M)

/-- A process writes messages to its file. parallelization.py:104-112. -/
def emit (fs : PyDict String (List M)) (p : String × List M) : PyDict String (List M) :=
  fs.set p.1 ((fs.get? p.1).getD [] ++ p.2)

/-- The loop of `_consolidate_mp_logs` from the number `i` on; a missing file is an error. parallelization.py:168-173. -/
def consolidate : Nat → List String → Logs M → Except PyErr Unit × Logs M
  | _, [], s => (.ok (), s)
  | i, fn :: r, s =>
    match s.files.get? fn with
    | none => (.error .other, s)
    | some msgs => consolidate (i + 1) r ⟨s.files.set fn [], s.main ++ [(i, msgs)]⟩

/-- `pool_job` with processes: what they write, and whether the job raises an exception. parallelization.py:132-139. -/
def poolJob (logfiles : List String) (writes : List (String × List M)) (raises : Option PyErr) (s : Logs M) :
    Except PyErr Unit × Logs M :=
  let s' : Logs M := ⟨writes.foldl emit s.files, s.main⟩
  match raises with
  | some e => (.error e, s')
  | none => consolidate 0 logfiles s'

/-- What the log of a given level has of the messages that `_consolidate_mp_logs` hands to `logger.info` (20).
parallelization.py:172. -/
def shown (level : Nat) (main : List (Nat × List M)) : List (Nat × List M) := if level ≤ 20 then main else []

/-- `_remove_mp_logs`; a missing file is an error. parallelization.py:175-178. -/
def removeLogs : List String → PyDict String (List M) → Except PyErr Unit × PyDict String (List M)
  | [], fs => (.ok (), fs)
  | fn :: r, fs => if fs.contains fn then removeLogs r (fs.erase fn) else (.error .other, fs)

/-! ### `run` -/

/-- The world outside: the logs, whether processes are running, and the file with the results.
Used in main.py:98-168. -/
structure World (M T : Type) where
  logs : Logs M
  open' : Bool
  output : Option (String × T)

/-- A `MultiprocessingJob`: whether it has processes, and their log files. parallelization.py:33-67. -/
structure Job where
  useMp : Bool
  logfiles : List String

/-- `end_pool`. parallelization.py:180-185. -/
def endPool {T : Type} (j : Job) (w : World M T) : Except PyErr Unit × World M T :=
  if j.useMp then
    let r := removeLogs j.logfiles w.logs.files
    (r.1, ⟨⟨r.2, w.logs.main⟩, false, w.output⟩)
  else (.ok (), w)

/-- The parts of a run: reading (whether it is a fit, and the name of the output file), the equations of state, the
calculation or fit (which writes logs), and the table or the lines written. Used in main.py:117-165. -/
structure Parts (M T O : Type) where
  read : Except PyErr (Bool × Option String)
  eos : Except PyErr Unit
  compute : Logs M → Except PyErr O × Logs M
  tabulate : O → Except PyErr T
  fitLines : O → Except PyErr T

/-- `run`, main.py:98-168. `kwargs["MultiprocessingObject"]` is a `KeyError` if it is not given; a table that cannot be written
is logged only. -/
def run {T O : Type} (p : Parts M T O) (job : Option Job) (w : World M T) : Except PyErr Unit × World M T :=
  match p.read with
  | .error e => (.error e, w)
  | .ok (isFit, file) =>
    match job with
    | none => (.error .keyError, w)
    | some j =>
      match p.eos with
      | .error e => (.error e, w)
      | .ok _ =>
        let r := p.compute w.logs
        let w' : World M T := ⟨r.2, w.open', w.output⟩
        match r.1 with
        | .error e => (.error e, w')
        | .ok o =>
          if isFit then
            match p.fitLines o with
            | .error e => (.error e, w')
            | .ok t => endPool j ⟨w'.logs, w'.open', some (Dispatch.outputFile file, t)⟩
          else
            match p.tabulate o with
            | .error _ => endPool j w'
            | .ok t => endPool j ⟨w'.logs, w'.open', some (Dispatch.outputFile file, t)⟩

end Verif.Run
