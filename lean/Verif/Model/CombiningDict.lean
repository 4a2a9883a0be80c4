import Verif.Model.CrossInteraction
import Verif.Model.CombiningRules

/-!
# `despasito/equations_of_state/eos_toolbox.py:365-409` `combining_rules`, and where its rules come from

Parameters of a group are a partial function from the name of a parameter to a real number; a group that is missing from the
library has no parameters (both are a `KeyError`).  Results are `Option ℝ`, where `none` is what numpy returns for the root of
a negative number or a division by zero.  The weighting parameters of a rule are a list of names.  The multipole rule, which
needs an optional package, is a parameter.
-/

namespace Verif.CombiningDict
open Verif Verif.CrossInteraction

/-- A matrix entry that was never written is the number zero (`np.zeros`). Used in eos_toolbox.py:286. -/
instance zeroEntry : Zero (Option ℝ) := ⟨some 0⟩

/-- One entry of `combining_dict`: the name of the rule, its weighting parameters, and the names of further keyword
arguments (each `none` or empty when left out). Used in eos_toolbox.py:301-303. -/
structure Rule where
  function : Option String
  weights : Option (List String) := none
  others : List String := []
  deriving DecidableEq, Repr

/-- What `getattr(combining_rule_types, function)` finds. Used in eos_toolbox.py:391-399. -/
inductive Fn where
  | none | mean | geometric | volumetric | weighted | mieExponent | berthelot | multipole | notCallable | unknown
  deriving DecidableEq, Repr

/-- eos_toolbox.py:391-399; `np`, `logging` and `logger` are names of the module too (its double-underscore names are not
modelled). -/
def fnOf (s : String) : Fn :=
  if s = "None" then .none else if s = "mean" then .mean else if s = "geometric_mean" then .geometric
  else if s = "volumetric_geometric_mean" then .volumetric else if s = "weighted_mean" then .weighted
  else if s = "mie_exponent" then .mieExponent else if s = "square_well_berthelot" then .berthelot
  else if s = "multipole" then .multipole
  else if s = "np" ∨ s = "logging" ∨ s = "logger" then .notCallable else .unknown

/-- The parameters of a group. Used in combining_rule_types.py:13-33. -/
abbrev Group := String → Option ℝ

/-- `bead[parameter]`. Used in combining_rule_types.py:33. -/
def param (g : Group) (p : String) : Except PyErr ℝ :=
  match g p with
  | none => .error .keyError
  | some v => .ok v

/-- `weighting_parameters[i]`, by default of the empty list. Used in combining_rule_types.py:84, 113 and 169. -/
def weight (r : Rule) (i : Nat) : Except PyErr String :=
  match (r.weights.getD [])[i]? with
  | none => .error .indexError
  | some q => .ok q

noncomputable section

/-- `np.sqrt`. Used in combining_rule_types.py:56. -/
def root (x : ℝ) : Option ℝ := if x < 0 then none else some (Real.sqrt x)

/-- Division of a numpy number. Used in combining_rule_types.py:85. -/
def over (a : Option ℝ) (b : ℝ) : Option ℝ := if b = 0 then none else a.map (· / b)

/-- A product of two numpy numbers. Used in combining_rule_types.py:86. -/
def times (a b : Option ℝ) : Option ℝ := a.bind fun x => b.map fun y => x * y

/-- combining_rule_types.py:83-86: the two factors of the volumetric mean. -/
def volumetric (A B : Group) (p : String) (r : Rule) : Except PyErr (Option ℝ) := do
  let a ← param A p
  let b ← param B p
  let q ← weight r 0
  let c ← param A q
  let d ← param B q
  pure (times (root (a * b)) (over ((root (c ^ 3 * d ^ 3)).map (· * 8)) ((c + d) ^ 3)))

/-- combining_rule_types.py:113-118; python floats, whose division by zero raises. -/
def weighted (A B : Group) (p q : String) : Except PyErr ℝ := do
  let a ← param A p
  let c ← param A q
  let b ← param B p
  let d ← param B q
  if c + d = 0 then throw .zeroDivision
  pure ((a * c + b * d) / (c + d))

/-- combining_rule_types.py:169-177. -/
def berthelot (A B : Group) (p : String) (r : Rule) : Except PyErr (Option ℝ) := do
  let q ← weight r 0
  let s ← weight r 1
  let a ← param A p
  let b ← param B p
  let c ← param A q
  let d ← param B q
  let w ← weighted A B s q
  let e ← param A s
  let f ← param B s
  pure (times (times (root (a * b)) (over ((root (c ^ 3 * d ^ 3)).map (· * 8)) ((c + d) ^ 3)))
    (over (root ((e ^ 3 - 1) * (f ^ 3 - 1))) (w ^ 3 - 1)))

/-- combining_rule_types.py:13-177: calling a rule. A keyword argument it does not have is a `TypeError`. `multi` stands for
the multipole rule (184-243). -/
def callFn (multi : Rule → Group → Group → String → Except PyErr (List (String × Option ℝ))) (A B : Group) (p : String)
    (r : Rule) : Fn → Except PyErr (List (String × Option ℝ))
  | .none => .ok []
  | .unknown => .error .importError
  | .notCallable => .error .typeError
  | .mean => if r.weights.isSome ∨ r.others ≠ [] then .error .typeError else do
      let a ← param A p
      let b ← param B p
      pure [(p, some ((a + b) / 2))]
  | .geometric => if r.weights.isSome ∨ r.others ≠ [] then .error .typeError else do
      let a ← param A p
      let b ← param B p
      pure [(p, root (a * b))]
  | .mieExponent => if r.weights.isSome ∨ r.others ≠ [] then .error .typeError else do
      let a ← param A p
      let b ← param B p
      pure [(p, (root ((a - 3) * (b - 3))).map (3 + ·))]
  | .volumetric => if r.others ≠ [] then .error .typeError else do
      let v ← volumetric A B p r
      pure [(p, v)]
  | .weighted => if r.others ≠ [] then .error .typeError else do
      let q ← weight r 0
      let v ← weighted A B p q
      pure [(p, some v)]
  | .berthelot => if r.others ≠ [] then .error .typeError else do
      let v ← berthelot A B p r
      pure [(p, v)]
  | .multipole =>
      if r.weights.isSome ∨ ∃ o ∈ r.others, o ≠ "temperature" ∧ o ≠ "mode" ∧ o ≠ "scaled" then .error .typeError
      else multi r A B p

/-- eos_toolbox.py:365-409 `combining_rules`: the mean unless a function is named. -/
def combiningRules (multi : Rule → Group → Group → String → Except PyErr (List (String × Option ℝ))) (A B : Group) (p : String)
    (r : Rule) : Except PyErr (List (String × Option ℝ)) :=
  callFn multi A B p r (fnOf (r.function.getD "mean"))

/-- eos_toolbox.py:299-313: `combining_rules` in the loop over pairs; building the message of the `ValueError` reads the
entry `function` of the rule, a `KeyError` when it was left out. -/
def input (multi : Rule → Group → Group → String → Except PyErr (List (String × Option ℝ))) (beads : List String)
    (lib : String → Group) (cross : String → String → Group) (d : PyDict String Rule) : Input String String (Option ℝ) where
  beads := beads
  keys := d.keys
  self := fun b k => (lib b k).map some
  cross := fun b b' k => (cross b b' k).map some
  rule := fun k b b' =>
    match d.get? k with
    | none => .error .keyError
    | some r => combiningRules multi (lib b) (lib b') k r
  onFail := fun k =>
    match (d.get? k).bind Rule.function with
    | none => .keyError
    | some _ => .valueError

/-- saft.py:282-285 after gamma_mie.py:256-265 (or gamma_sw.py:210-218): the matrices from the rules of the equation of state,
and once more when the user gave rules, which replace those of the same parameters. -/
def matrices (multi : Rule → Group → Group → String → Except PyErr (List (String × Option ℝ))) (beads : List String)
    (lib : String → Group) (cross : String → String → Group) (d : PyDict String Rule) (user : Option (PyDict String Rule)) :
    Except PyErr (Mats String (Option ℝ)) :=
  match crossInteraction (input multi beads lib cross d) with
  | .error e => .error e
  | .ok M =>
    match user with
    | none => .ok M
    | some u => crossInteraction (input multi beads lib cross (d.update u))

end

/-- gamma_mie.py:210-218. -/
def mieRules : PyDict String Rule :=
  ⟨[("sigma", { function := some "mean" }), ("lambdar", { function := some "mie_exponent" }),
    ("lambdaa", { function := some "mie_exponent" }),
    ("epsilon", { function := some "volumetric_geometric_mean", weights := some ["sigma"] })]⟩

/-- gamma_sw.py:168-175. -/
def swRules : PyDict String Rule :=
  ⟨[("sigma", { function := some "mean" }), ("lambda", { function := some "weighted_mean", weights := some ["sigma"] }),
    ("epsilon", { function := some "square_well_berthelot", weights := some ["sigma", "lambda"] })]⟩

end Verif.CombiningDict
