import Verif.Model.Objective
import Verif.Model.FitInput

/-!
# Global optimisation: `despasito/parameter_fitting/global_methods.py`

The local minimiser (`solve_root` on `compute_obj`), scipy's global methods and random numbers are
parameters.  Log messages are dropped.
-/

namespace Verif.GlobalMethods
open Verif

variable {K : Type} [Field K] [LinearOrder K]

/-! ### Grid minimisation -/

/-- A starting point or a result: a numpy scalar or an array.  `np.mgrid` over one dimension gives
scalars, over more an array for each point. Used in global_methods.py:688. -/
inductive Pt (K : Type) where
  | scalar (x : Ext K)
  | vec (l : List (Ext K))
deriving DecidableEq

/-- `list(p)`: a numpy scalar is not iterable. Used in fit_functions.py:450-456. -/
def Pt.toList : Pt K → Except PyErr (List (Ext K))
  | .scalar _ => .error .typeError
  | .vec l => .ok l

/-- global_methods.py:688: NaN in the shape of the starting point. -/
def Pt.nanLike : Pt K → Pt K
  | .scalar _ => .scalar .nan
  | .vec l => .vec (List.replicate l.length .nan)

/-- The values of one dimension, `np.mgrid[lo:hi:complex(Ns)]`: `Ns` values from `lo` to `hi`
inclusive. Used in global_methods.py:383-409. -/
def axis (n : Nat) (b : K × K) : List K :=
  (List.range n).map (fun (i : Nat) => b.1 + (i : K) * ((b.2 - b.1) / ((n : K) - 1)))

/-- global_methods.py:383-409: all combinations, the last dimension running fastest. -/
def gridPoints (n : Nat) : List (K × K) → List (List K)
  | [] => [[]]
  | b :: bs => (axis n b).flatMap (fun x => (gridPoints n bs).map (fun r => x :: r))

/-- The starting points in the form numpy gives them: scalars for one dimension
(global_methods.py:403-409). -/
def startPoints (n : Nat) (bounds : List (K × K)) : List (Pt K) :=
  match bounds with
  | [b] => (axis n b).map (fun x => .scalar (.fin x))
  | _ => (gridPoints n bounds).map (fun l => .vec (l.map .fin))

/-- What `compute_obj` needs besides the parameters. Used in fit_functions.py:450-456. -/
structure Problem (K : Type) where
  nNames : Nat
  data : List (Ext K) → List (Except PyErr (Ext K))
  bounds : List (Ext K × Ext K)

/-- `compute_obj` called with frozen parameters (fit_functions.py:450-456): `len` of a scalar and `list`
of a scalar are `TypeError`s. -/
def objAt (p : Problem K) (frozen : Option (Pt K)) (x : Pt K) : Except PyErr (Ext K) :=
  match x with
  | .scalar _ => .error .typeError
  | .vec l =>
    match frozen with
    | none => Objective.computeObj l p.nNames p.data p.bounds none
    | some f =>
      if l.length ≠ p.nNames then
        match f.toList with
        | .error e => .error e
        | .ok fl => Objective.computeObj l p.nNames p.data p.bounds (some fl)
      else Objective.computeObj l p.nNames p.data p.bounds none

/-- The local minimiser: it is given the objective function and the starting point.  It may raise for
reasons of its own. Used in global_methods.py:677-692. -/
abbrev Minimiser (K : Type) := (Pt K → Except PyErr (Ext K)) → Pt K → Except PyErr (Pt K)

/-- global_methods.py:677-692: the result of the minimisation, NaN if it fails. -/
def minimised (solve : Minimiser K) (obj : Pt K → Except PyErr (Ext K)) (x0 : Pt K) : Pt K :=
  match solve obj x0 with
  | .ok r => r
  | .error _ => x0.nanLike

/-- `_grid_minimization_wrapper`, global_methods.py:664-694. -/
def gridJob (solve : Minimiser K) (obj : Pt K → Except PyErr (Ext K)) (x0 : Pt K) :
    Except PyErr (Pt K × Ext K) :=
  match obj (minimised solve obj x0) with
  | .error e => .error e
  | .ok f => .ok (minimised solve obj x0, f)

/-- All jobs: an exception of one ends the search. Used in global_methods.py:269-461. -/
def gridJobs (solve : Minimiser K) : List ((Pt K → Except PyErr (Ext K)) × Pt K) →
    Except PyErr (List (Pt K × Ext K))
  | [] => .ok []
  | j :: js => match gridJob solve j.1 j.2 with
    | .error e => .error e
    | .ok r => match gridJobs solve js with
      | .error e => .error e
      | .ok rs => .ok (r :: rs)

/-- global_methods.py:441-447: the loop replacing the result when it is larger than a candidate. -/
def pickLoop {R : Type} : (Ext K × R) → List (Ext K × R) → Ext K × R
  | best, [] => best
  | best, c :: cs => pickLoop (if Ext.lt c.1 best.1 then c else best) cs

/-- global_methods.py:441-447. -/
def pick {R : Type} : List (Ext K × R) → Except PyErr (Ext K × R)
  | [] => .error .indexError
  | c :: cs => .ok (pickLoop c (c :: cs))

/-- `grid_minimization` without split, global_methods.py:269-461, after the inputs were set up. -/
def gridMin (solve : Minimiser K) (p : Problem K) (x0s : List (Pt K)) : Except PyErr (Ext K × Pt K) :=
  match gridJobs solve (x0s.map (fun x => (objAt p none, x))) with
  | .error e => .error e
  | .ok rs => pick (rs.map (fun r => (r.2, r.1)))

/-- global_methods.py:425-437: a result with its frozen parameters in front. -/
def withFrozen : List (Pt K) → List (Pt K × Ext K) → Except PyErr (List (Ext K × List (Ext K)))
  | [], _ => .ok []
  | _ :: _, [] => .error .indexError
  | f :: fs, r :: rs =>
    match f.toList with
    | .error e => .error e
    | .ok fl => match r.1.toList with
      | .error e => .error e
      | .ok rl => match withFrozen fs rs with
        | .error e => .error e
        | .ok t => .ok ((r.2, fl ++ rl) :: t)

/-- `grid_minimization` with the leading dimensions frozen at the grid points `fs`, and the others started
at `starts` (the same guess for each point, or the rest of each initial guess). global_methods.py:391-461. -/
def gridMinSplit (solve : Minimiser K) (p : Problem K) (fs : List (Pt K)) (starts : List (Pt K)) :
    Except PyErr (Ext K × List (Ext K)) :=
  match gridJobs solve ((fs.zip starts).map (fun q => (objAt p (some q.1), q.2))) with
  | .error e => .error e
  | .ok rs => match withFrozen fs rs with
    | .error e => .error e
    | .ok t => pick t

/-! ### Options of the local minimiser -/

/-- User options: the method and the nested options, each if given.  Other keys of the dictionary are
ignored by all methods. global_methods.py:352-361, 233-242 and 626-635. -/
structure MinOpts (ν : Type) where
  method : Option ν
  options : Option (PyDict String ν)

/-- The loop over the nested options: global_methods.py:358-360, 239-241, 632-634.  `dst` is the entry
`"options"` of the new dictionary, a `KeyError` if there is none. -/
def mergeOptions {ν : Type} : List (String × ν) → Option (PyDict String ν) →
    Except PyErr (Option (PyDict String ν))
  | [], dst => .ok dst
  | _ :: _, none => .error .keyError
  | (k, v) :: r, some d => mergeOptions r (some (d.set k v))

/-- `new_minimizer_opts` from its defaults and the user's dictionary (which may be absent).
global_methods.py:352-361, 233-242 and 626-635. -/
def minimizerOpts {ν : Type} (method : ν) (dflt : Option (PyDict String ν)) (user : Option (MinOpts ν)) :
    Except PyErr (ν × Option (PyDict String ν)) :=
  match user with
  | none => .ok (method, dflt)
  | some u =>
    match u.options with
    | none => .ok (u.method.getD method, dflt)
    | some o => match mergeOptions o.entries dflt with
      | .error e => .error e
      | .ok d => .ok (u.method.getD method, d)

/-- shgo 233-242 and basinhopping 626-635: defaults `nelder-mead` and 50 iterations.
global_methods.py:233-242 and 626-635. -/
def minimizerOptsHopping {ν : Type} (nelderMead fifty : ν) (user : Option (MinOpts ν)) :
    Except PyErr (ν × Option (PyDict String ν)) :=
  minimizerOpts nelderMead (some ⟨[("maxiter", fifty)]⟩) user

/-- grid_minimization 352-361: default `least_squares` and no nested options. global_methods.py:352-361. -/
def minimizerOptsGrid {ν : Type} (leastSquares : ν) (user : Option (MinOpts ν)) :
    Except PyErr (ν × Option (PyDict String ν)) :=
  minimizerOpts leastSquares none user

/-- The loop of shgo 248-256 removing options while iterating: python raises a `RuntimeError` (here
`.other`) when the iteration goes on after the first removal. global_methods.py:248-256. -/
def pruneOptions {ν : Type} (allowed : List String) (d : PyDict String ν) :
    Except PyErr (PyDict String ν) :=
  if d.keys.all (fun k => allowed.contains k) then .ok d else .error .other

/-- The options allowed, global_methods.py:250-254. -/
def slsqpOptions : List String := ["ftol", "eps", "disp", "maxiter", "finite_diff_rel_step"]

/-! ### Basin hopping -/

/-- `x <= y` of numpy, false with NaN. Used in global_methods.py:799-811. -/
def le (a b : Ext K) : Bool := Ext.lt a b || (decide (a = b) && !Objective.isNan a)

/-- `_BasinBounds.__call__`, global_methods.py:780-811, for as many bounds as parameters.
`|f| < inf` and `f` is not NaN. -/
def accept (bounds : List (Ext K × Ext K)) (x : List (Ext K)) (f : Ext K) : Bool :=
  (x.zip bounds).all (fun p => le p.1 p.2.2) && (x.zip bounds).all (fun p => le p.2.1 p.1) &&
    Ext.lt (Objective.abs f) .pinf && !Objective.isNan f

/-- One try of `_BasinStep.__call__`, global_methods.py:742-750: the draws `u` are in [-1, 1], the step is
`mag * stepsize * u`; dimensions without a magnitude stay. More magnitudes than parameters, an IndexError
in the code, do not arise: the magnitudes are the upper bounds, one for each parameter
(global_methods.py:642-643). -/
def tryStep (stepsize : K) : List K → List K → List K → List K
  | [], _, _ => []
  | x :: xs, m :: ms, u :: us => (x + m * stepsize * u) :: tryStep stepsize xs ms us
  | xs, _, _ => xs

/-- The loop over tries, global_methods.py:737-754: it stops at the first try without a negative
value among those moved and otherwise returns the last try. -/
def basinLoop (stepsize : K) (mags x : List K) : List (List K) → List K → List K
  | [], last => last
  | u :: us, _ =>
    if ((tryStep stepsize x mags u).take mags.length).any (fun v => decide (v < 0)) then
      basinLoop stepsize mags x us (tryStep stepsize x mags u)
    else tryStep stepsize x mags u

/-- `_BasinStep.__call__` with the random draws of its tries (1000 of them). global_methods.py:722-754. -/
def basinStep (stepsize : K) (mags x : List K) (draws : List (List K)) : List K :=
  basinLoop stepsize mags x draws x

/-! ### Intermediate results -/

/-- The decimal digits of a number below 20, as `"{}".format(i)` writes it. Used in global_methods.py:845-847. -/
def digits (i : Nat) : List Char := (Nat.repr i).toList

/-- global_methods.py:845-847: `"{}_{}".format(i, old)`. -/
def altName (i : Nat) (old : FitInput.Str) : FitInput.Str := digits i ++ '_' :: old

/-- The loop over alternatives: the first one that does not exist, else the last one tried.
Used in global_methods.py:843-849. -/
def altLoop (isFile : FitInput.Str → Bool) (old : FitInput.Str) : List Nat → FitInput.Str → FitInput.Str
  | [], last => last
  | i :: is, _ =>
    if isFile (altName i old) then altLoop isFile old is (altName i old) else altName i old

/-- global_methods.py:843-852: the file to write to. -/
def chooseFile (isFile : FitInput.Str → Bool) (name : FitInput.Str) : FitInput.Str :=
  if isFile name then altLoop isFile name (List.range 20) name else name

/-- What the callback is given: by differential evolution (the convergence) or by basin hopping (the
objective and whether the step was accepted). Used in global_methods.py:888-899. -/
inductive Event (K : Type) where
  | convergence (x : List (Ext K)) (conv : Ext K)
  | hop (x : List (Ext K)) (f : Ext K) (accepted : Bool)
deriving DecidableEq

/-- A line of the file. global_methods.py:892-906. -/
inductive Line (K : Type) where
  | header
  | record (n : Nat) (e : Event K)
deriving DecidableEq

/-- The writer: content of its file (`none`: there is no such file) and the counter.
Used in global_methods.py:855-915. -/
structure Writer (K : Type) where
  file : Option (List (Line K))
  ninit : Nat

/-- global_methods.py:888-899: whether a call is written. -/
def wanted (cut : Ext K) : Event K → Bool
  | .convergence _ c => Ext.lt c cut
  | .hop _ f a => a || Ext.lt f cut

/-- The file after one more record, with a header if it is new. Used in global_methods.py:888-906. -/
def appendLine (file : Option (List (Line K))) (l : Line K) : List (Line K) :=
  match file with
  | none => [.header, l]
  | some ls => ls ++ [l]

/-- `_WriteParameterResults.__call__`, global_methods.py:855-915.  Calls with other arguments raise
`ValueError` and are left out. -/
def writeCall (cut : Ext K) (w : Writer K) (e : Event K) : Writer K :=
  { file := if wanted cut e then some (appendLine w.file (.record w.ninit e)) else w.file
    ninit := w.ninit + 1 }

/-- A whole run. global_methods.py:855-915. -/
def writeRun (cut : Ext K) (w : Writer K) (es : List (Event K)) : Writer K :=
  es.foldl (writeCall cut) w

end Verif.GlobalMethods
