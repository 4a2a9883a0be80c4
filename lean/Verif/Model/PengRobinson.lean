import Verif.Basic.Py
import Verif.Model.Interface
import Mathlib.Analysis.SpecialFunctions.Log.Basic
import Mathlib.Analysis.SpecialFunctions.Sqrt
import Mathlib.Algebra.BigOperators.Fin

/-!
# `despasito/equations_of_state/cubic/peng_robinson.py`

Floating point numbers are real numbers, `np.log` and `np.sqrt` are the real functions (on the states
that the theorems consider their arguments are positive).  Loops over components are sums over
`Fin n`.  `constants.R` is a parameter `R`.
-/

namespace Verif.PengRobinson
open Verif Verif.Interface

/-! ## Properties of a mixture with given parameters -/

/-- The parameters held in `eos_dict` at one temperature (peng_robinson.py:112-119). -/
structure Par (n : ℕ) where
  ai : Fin n → ℝ
  bi : Fin n → ℝ
  alpha : Fin n → ℝ
  kij : Fin n → Fin n → ℝ

variable {n : ℕ}

/-- peng_robinson.py:175-191: `eos_dict["aij"]`. -/
noncomputable def amix (p : Par n) (x : Fin n → ℝ) : ℝ :=
  ∑ i, ∑ j, x i * x j * √(p.ai i * p.alpha i * p.ai j * p.alpha j) * (1 - p.kij i j)

/-- peng_robinson.py:192: `eos_dict["bij"]`. -/
noncomputable def bmix (p : Par n) (x : Fin n → ℝ) : ℝ := ∑ i, x i * p.bi i

/-- peng_robinson.py:225-227 for given mixture parameters. -/
noncomputable def pressureAB (R T a b ρ : ℝ) : ℝ :=
  R * T * ρ / (1 - b * ρ) - ρ ^ 2 * a / ((1 + b * ρ) + ρ * b * (1 - b * ρ))

/-- peng_robinson.py:194-229, one density. -/
noncomputable def pressure (R T : ℝ) (p : Par n) (x : Fin n → ℝ) (ρ : ℝ) : ℝ :=
  pressureAB R T (amix p x) (bmix p x) ρ

/-- peng_robinson.py:297-324 -/
noncomputable def densityMax (p : Par n) (x : Fin n → ℝ) (maxpack : ℝ) : ℝ := maxpack / bmix p x

/-- peng_robinson.py:272-293: the logarithm of the fugacity coefficient of component `i`
(`tmp1 * tmp2 + tmp3`). -/
noncomputable def lnPhi (R T : ℝ) (p : Par n) (x : Fin n → ℝ) (P ρ : ℝ) (i : Fin n) : ℝ :=
  let RT := R * T
  let Z := P / (RT * ρ)
  let Ai := fun i => p.ai i * p.alpha i * P / RT ^ 2
  let Bi := fun i => p.bi i * P / RT
  let B := bmix p x * P / RT
  let A := amix p x * P / RT ^ 2
  let s := √2
  let tmp1 := A / (2 * s * B) * Real.log ((Z + (1 + s) * B) / (Z + (1 - s) * B))
  let tmp3 := Bi i * (Z - 1) / B - Real.log (Z - B)
  let tmp2 := Bi i / B - 2 * (∑ j, x j * (√(Ai i * Ai j) * (1 - p.kij i j))) / A
  tmp1 * tmp2 + tmp3

/-- peng_robinson.py:231-295 -/
noncomputable def phi (R T : ℝ) (p : Par n) (x : Fin n → ℝ) (P ρ : ℝ) (i : Fin n) : ℝ :=
  Real.exp (lnPhi R T p x P ρ i)

/-! ## The object and its updates -/

/-- The formulas of `parameter_refresh` and `_calc_temp_dependent_parameters`, kept abstract so that
the statements about histories do not depend on them. peng_robinson.py:125-150 and 350-400. -/
structure Formulas (V : Type) where
  /-- peng_robinson.py:361-365: κ from ω -/
  kappa : V → V
  /-- peng_robinson.py:368-370: a from Tc, Pc -/
  ai : V → V → V
  /-- peng_robinson.py:371-373: b from Tc, Pc -/
  bi : V → V → V
  /-- peng_robinson.py:146-148: α from κ, T, Tc -/
  alpha : V → V → V → V
  /-- peng_robinson.py:150 -/
  one : V
  /-- peng_robinson.py:112-119, the initial entries -/
  zero : V

/-- The formulas of the code, over the reals. peng_robinson.py:141-150 and 361-373. -/
noncomputable def realFormulas (R : ℝ) : Formulas ℝ where
  kappa w := 0.37464 + 1.54226 * w - 0.26992 * w ^ 2
  ai Tc Pc := 0.45723553 * (R * Tc) ^ 2 / Pc
  bi Tc Pc := 0.07779607 * (R * Tc / Pc)
  alpha k T Tc := (1 + k * (1 - √(T / Tc))) ^ 2
  one := 1
  zero := 0

/-- A self-interaction dictionary of one group. peng_robinson.py:96-104 and 360-377. -/
abbrev Dict (V : Type) := PyDict String V

/-- The object.  Groups are identified with their position `0 … n-1` in the list, which is faithful
when the names are distinct. peng_robinson.py:74-123. -/
structure State (V : Type) where
  n : ℕ
  lib : ℕ → Dict V
  cross : PyDict ℕ (PyDict ℕ (PyDict String V))
  testCritical : ℕ → Bool
  testParameters : ℕ → Bool
  ai : ℕ → V
  bi : ℕ → V
  alpha : ℕ → V
  kij : ℕ → ℕ → V
  /-- `None` before the first evaluation -/
  T : Option V

variable {V : Type}

/-- peng_robinson.py:360-365: κ is derived from ω only when it is missing. -/
def refreshKappa (F : Formulas V) (d : Dict V) : Dict V :=
  match d.get? "omega", d.get? "kappa" with
  | some w, none => d.set "kappa" (F.kappa w)
  | _, _ => d

/-- peng_robinson.py:367-373: a and b are derived from Tc and Pc when the object was built without a, b. -/
def refreshAB (F : Formulas V) (crit par : Bool) (d : Dict V) : Except PyErr (Dict V) :=
  if crit && !par then
    match d.get? "Tc", d.get? "Pc" with
    | some Tc, some Pc => .ok ((d.set "ai" (F.ai Tc Pc)).set "bi" (F.bi Tc Pc))
    | _, _ => .error .keyError
  else .ok d

/-- peng_robinson.py:360-377 for one group: the refreshed dictionary and the entries copied into the arrays. -/
def refreshGroup (F : Formulas V) (crit par : Bool) (d : Dict V) : Except PyErr (Dict V × V × V) :=
  match refreshAB F crit par (refreshKappa F d) with
  | .error e => .error e
  | .ok d' =>
    match d'.get? "ai", d'.get? "bi" with
    | some a, some b => .ok (d', a, b)
    | _, _ => .error .keyError

/-- peng_robinson.py:141-150: α of one group; a group with κ but without Tc is a `KeyError`. -/
def groupAlpha (F : Formulas V) (d : Dict V) (T : V) : Except PyErr V :=
  match d.get? "kappa" with
  | none => .ok F.one
  | some k =>
    match d.get? "Tc" with
    | some Tc => .ok (F.alpha k T Tc)
    | none => .error .keyError

/-- peng_robinson.py:379-397: the value written for `(i, j)` and `(j, i)` in step `(i, j)` of the double loop. -/
def kijValue (cross : PyDict ℕ (PyDict ℕ (PyDict String V))) (i j : ℕ) : Option V :=
  (crossGet? cross i j "kij").or (crossGet? cross j i "kij")

/-- One step of the double loop. peng_robinson.py:379-397. -/
def kijStep (cross : PyDict ℕ (PyDict ℕ (PyDict String V))) (k : ℕ → ℕ → V) (s : ℕ × ℕ) : ℕ → ℕ → V :=
  match kijValue cross s.1 s.2 with
  | none => k
  | some v => fun a b => if (a = s.1 ∧ b = s.2) ∨ (a = s.2 ∧ b = s.1) then v else k a b

/-- The steps `(i, j)` in loop order. peng_robinson.py:379-381. -/
def kijPairs (n : ℕ) : List (ℕ × ℕ) :=
  (List.range n).flatMap fun i => (List.range n).map fun j => (i, j)

/-- The whole double loop. peng_robinson.py:379-397. -/
def refreshKij (n : ℕ) (cross : PyDict ℕ (PyDict ℕ (PyDict String V))) (k : ℕ → ℕ → V) : ℕ → ℕ → V :=
  (kijPairs n).foldl (kijStep cross) k

/-- peng_robinson.py:141-150 over all groups, in order; stops at the first `KeyError`. -/
def calcAlpha (F : Formulas V) (lib : ℕ → Dict V) (T : V) : List ℕ → (ℕ → V) → Except PyErr (ℕ → V)
  | [], al => .ok al
  | i :: r, al =>
    match groupAlpha F (lib i) T with
    | .error e => .error e
    | .ok a => calcAlpha F lib T r (fun j => if j = i then a else al j)

/-- peng_robinson.py:360-377 over all groups. -/
def refreshGroups (F : Formulas V) : List ℕ → State V → Except PyErr (State V)
  | [], s => .ok s
  | i :: r, s =>
    match refreshGroup F (s.testCritical i) (s.testParameters i) (s.lib i) with
    | .error e => .error e
    | .ok (d, a, b) =>
      refreshGroups F r { s with
        lib := fun j => if j = i then d else s.lib j
        ai := fun j => if j = i then a else s.ai j
        bi := fun j => if j = i then b else s.bi j }

/-- peng_robinson.py:350-400.  The groups and the `kij` double loop are independent of each other and are run
one after the other here; the code interleaves them. -/
def refresh (F : Formulas V) (s : State V) : Except PyErr (State V) :=
  match refreshGroups F (List.range s.n) s with
  | .error e => .error e
  | .ok s' =>
    let s'' := { s' with kij := refreshKij s.n s.cross s.kij }
    match s''.T with
    | none => .ok s''
    | some T =>
      match calcAlpha F s''.lib T (List.range s.n) s''.alpha with
      | .error e => .error e
      | .ok al => .ok { s'' with alpha := al }

/-- peng_robinson.py:74-123: construction from libraries. -/
def build (F : Formulas V) (n : ℕ) (lib : ℕ → Dict V)
    (cross : PyDict ℕ (PyDict ℕ (PyDict String V))) : Except PyErr (State V) :=
  let crit := fun i => (lib i).contains "Tc" && (lib i).contains "Pc"
  let par := fun i => (lib i).contains "ai" && (lib i).contains "bi"
  if (List.range n).all (fun i => crit i || par i) then
    refresh F
      { n := n, lib := lib, cross := cross, testCritical := crit, testParameters := par
        ai := fun _ => F.zero, bi := fun _ => F.zero, alpha := fun _ => F.zero
        kij := fun _ _ => F.zero, T := none }
  else .error .valueError

/-- `if T != self.T: self.T = T; self._calc_temp_dependent_parameters(T)` (peng_robinson.py:171-173, 214-216,
268-270, 316-318), run at the start of every evaluation.  On a `KeyError` the object keeps the new
temperature, but the calculation is lost; such states are not followed further here. -/
def ensureT [DecidableEq V] (F : Formulas V) (s : State V) (T : V) : Except PyErr (State V) :=
  if s.T = some T then .ok s
  else
    match calcAlpha F s.lib T (List.range s.n) s.alpha with
    | .error e => .error e
    | .ok al => .ok { s with T := some T, alpha := al }

/-- peng_robinson.py:326-348 on a self parameter (with the checks of the base class assumed to pass). -/
def updateSelf (s : State V) (i : ℕ) (p : String) (v : V) : Except PyErr (State V) :=
  if (p = "ai" ∨ p = "bi") ∧ s.testCritical i = true then .error .valueError
  else .ok { s with lib := fun j => if j = i then (s.lib i).set p v else s.lib j }

/-- peng_robinson.py:326-348 on a cross parameter. -/
def updateCross (s : State V) (i j : ℕ) (p : String) (v : V) : Except PyErr (State V) :=
  if (p = "ai" ∨ p = "bi") ∧ s.testCritical i = true then .error .valueError
  else .ok { s with cross := setCross s.cross i j p v }

/-- The events of a fitting run. peng_robinson.py:152-324 and 326-348. -/
inductive Op (V : Type) where
  | self (i : ℕ) (p : String) (v : V)
  | cross (i j : ℕ) (p : String) (v : V)
  | refresh
  | eval (T : V)

/-- One event. peng_robinson.py:152-400. -/
def step [DecidableEq V] (F : Formulas V) (s : State V) : Op V → Except PyErr (State V)
  | .self i p v => updateSelf s i p v
  | .cross i j p v => updateCross s i j p v
  | .refresh => refresh F s
  | .eval T => ensureT F s T

/-- A history. peng_robinson.py:152-400. -/
def run [DecidableEq V] (F : Formulas V) (s : State V) : List (Op V) → Except PyErr (State V)
  | [] => .ok s
  | o :: r =>
    match step F s o with
    | .error e => .error e
    | .ok s' => run F s' r

end Verif.PengRobinson
