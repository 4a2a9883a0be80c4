import Verif.Model.FitInput
import Verif.Model.Interface
import Verif.Model.SaftState

/-!
# Histories of evaluations during a fit

Every data set keeps one equation of state for the whole fit; an evaluation of the objective writes the parameters tried into
it, refreshes it, and runs the calculation.  Here: the calculation as a process that asks the equation of state for its
properties, one question after the other.

Simplifications: the calculation ends after a given number of questions; writing and refreshing do not raise an exception,
except in `writeFitted`, where the exceptions of `update_parameter` are kept.
-/

namespace Verif.FitHistory
open Verif Verif.SaftState

/-- What a calculation does next, given the answers it has got: it asks for another state, or returns. The equation of state
is asked through `Eos` in calc.py:24-2795; the objective in TLVE.py:205-251 and the other classes is part of the result. -/
inductive Next (Q R : Type) where
  | ask (q : Q)
  | stop (r : R)

variable {S Q V R P : Type}

/-- A calculation run with an equation of state in state `s`: its result (`none` when the number of questions is exceeded),
the state afterwards, and all answers. The methods called are those of interface.py:80-138, in calc.py:24-2795. -/
def consult (eval : Q → S → S × V) (proc : List V → Next Q R) : Nat → S → List V → Option R × S × List V
  | 0, s, vs => (none, s, vs)
  | n + 1, s, vs =>
    match proc vs with
    | .stop r => (some r, s, vs)
    | .ask q => consult eval proc n (eval q s).1 (vs ++ [(eval q s).2])

/-- One evaluation of a data set: `update_parameters` and `objective`. fit_functions.py:466-470, interface.py:95-138. -/
def evaluate (write : P → S → S) (refresh : S → S) (eval : Q → S → S × V) (proc : List V → Next Q R) (n : Nat) (p : P)
    (s : S) : Option R × S × List V :=
  consult eval proc n (refresh (write p s)) []

/-- The equation of state of the data set after the parameters `ps` have been tried one after the other.
fit_functions.py:466-470 within one process. -/
def tried (write : P → S → S) (refresh : S → S) (eval : Q → S → S × V) (proc : List V → Next Q R) (n : Nat) (ps : List P)
    (s : S) : S :=
  ps.foldl (fun s p => (evaluate write refresh eval proc n p s).2.1) s

section
variable {Lib Rule Temp Comp Sk Kl Avg Al Dia Chain Seg : Type} [DecidableEq Temp] [DecidableEq Comp]

/-- A question to a Mie source. gamma_mie.py:693-695, 1134-1136, 1181-1182 and 1334-1336. -/
def askMie (o : MieOps Lib Rule Temp Comp Sk Kl Avg Al Dia Chain Seg) (q : Temp × Comp)
    (s : MieSt Lib Rule Temp Comp Sk Kl Avg Al Dia Chain Seg) :
    MieSt Lib Rule Temp Comp Sk Kl Avg Al Dia Chain Seg × (Sk × Kl × Avg × Al × Option Dia × Option Chain × Option Seg) :=
  (s.eval o q.1 q.2, (s.eval o q.1 q.2).view)

/-- The parameters are written into the library. interface.py:290-348. -/
def writeMie (w : P → Lib → Lib) (p : P) (s : MieSt Lib Rule Temp Comp Sk Kl Avg Al Dia Chain Seg) :
    MieSt Lib Rule Temp Comp Sk Kl Avg Al Dia Chain Seg :=
  { s with lib := w p s.lib }

/-- A question to a square-well source. gamma_sw.py:958-988. -/
def askSw (o : SwOps Lib Rule Comp Sk Kl Avg Al Seg) (q : Temp × Comp) (s : SwSt Lib Rule Comp Sk Kl Avg Al Seg) :
    SwSt Lib Rule Comp Sk Kl Avg Al Seg × (Sk × Kl × Avg × Al × Option Seg) :=
  (s.eval o q.2, (s.eval o q.2).view)

/-- The parameters are written into the library. interface.py:290-348. -/
def writeSw (w : P → Lib → Lib) (p : P) (s : SwSt Lib Rule Comp Sk Kl Avg Al Seg) : SwSt Lib Rule Comp Sk Kl Avg Al Seg :=
  { s with lib := w p s.lib }

end

/-- `update_parameters` of the data classes with `update_parameter` of the equation of state: the exception, if any, and
the libraries afterwards. interface.py:95-138 (data classes), interface.py:290-348 (equations of state). -/
def writeFitted {ν : Type} (bead : FitInput.Str) (names : List FitInput.Str) (vals : List ν) (e : Interface.Eos FitInput.Str ν) :
    Except PyErr Unit × Interface.Eos FitInput.Str ν :=
  FitInput.updateParameters (fun p bs v e => Interface.updateParameter e (String.ofList p) bs v) .ok bead names vals e

end Verif.FitHistory
