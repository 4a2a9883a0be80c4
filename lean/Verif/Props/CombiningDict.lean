import Verif.Model.CombiningDict
import Verif.Props.CrossInteraction
import Mathlib.Tactic.Linarith
import Mathlib.Tactic.Positivity

/-! # C145: the combining rules a user names are the ones that are used -/

namespace Verif.Props
open Verif Verif.CrossInteraction Verif.CombiningDict

variable (multi : Rule → Group → Group → String → Except PyErr (List (String × Option ℝ)))

private theorem param_some {g : Group} {p : String} {v : ℝ} (h : g p = some v) : param g p = .ok v := by
  simp only [param, h]

private theorem root_nonneg {x : ℝ} (h : 0 ≤ x) : root x = some (Real.sqrt x) := by
  unfold root; rw [if_neg (not_lt.mpr h)]

private theorem over_ne {x : ℝ} {b : ℝ} (h : b ≠ 0) : over (some x) b = some (x / b) := by
  unfold over; rw [if_neg h]; rfl

/-- **C145, the rules.**  For groups with values `a`, `b` of the parameter, sizes `c`, `d` and ranges `e`, `f`, each name
gives its formula, and no name gives the mean.  Weighting parameters after the ones a rule needs are not used. -/
theorem c145_rules (A B : Group) (p q s : String) (more : List String) (a b c d e f : ℝ) (hA : A p = some a)
    (hB : B p = some b) (hAq : A q = some c) (hBq : B q = some d) (hAs : A s = some e) (hBs : B s = some f) :
    combiningRules multi A B p { function := none } = .ok [(p, some ((a + b) / 2))] ∧
    combiningRules multi A B p { function := some "mean" } = .ok [(p, some ((a + b) / 2))] ∧
    (0 ≤ a * b → combiningRules multi A B p { function := some "geometric_mean" } = .ok [(p, some (Real.sqrt (a * b)))]) ∧
    (0 ≤ (a - 3) * (b - 3) → combiningRules multi A B p { function := some "mie_exponent" } =
      .ok [(p, some (3 + Real.sqrt ((a - 3) * (b - 3))))]) ∧
    (0 ≤ a * b → 0 < c → 0 < d →
      combiningRules multi A B p { function := some "volumetric_geometric_mean", weights := some (q :: more) } =
        .ok [(p, some (Real.sqrt (a * b) * (Real.sqrt (c ^ 3 * d ^ 3) * 8 / (c + d) ^ 3)))]) ∧
    (c + d ≠ 0 → combiningRules multi A B p { function := some "weighted_mean", weights := some (q :: more) } =
        .ok [(p, some ((a * c + b * d) / (c + d)))]) ∧
    (0 ≤ a * b → 0 < c → 0 < d → 1 < e → 1 < f →
      combiningRules multi A B p { function := some "square_well_berthelot", weights := some (q :: s :: more) } =
        .ok [(p, some (Real.sqrt (a * b) * (Real.sqrt (c ^ 3 * d ^ 3) * 8 / (c + d) ^ 3) *
          (Real.sqrt ((e ^ 3 - 1) * (f ^ 3 - 1)) / (((e * c + f * d) / (c + d)) ^ 3 - 1))))]) := by
  have pA := param_some hA
  have pB := param_some hB
  have pAq := param_some hAq
  have pBq := param_some hBq
  have pAs := param_some hAs
  have pBs := param_some hBs
  refine ⟨?_, ?_, ?_, ?_, ?_, ?_, ?_⟩
  · simp [combiningRules, fnOf, callFn, pA, pB, bind, Except.bind, pure, Except.pure]
  · simp [combiningRules, fnOf, callFn, pA, pB, bind, Except.bind, pure, Except.pure]
  · intro h
    simp [combiningRules, fnOf, callFn, pA, pB, bind, Except.bind, pure, Except.pure, root_nonneg h]
  · intro h
    simp [combiningRules, fnOf, callFn, pA, pB, bind, Except.bind, pure, Except.pure, root_nonneg h]
  · intro h hc hd
    have h1 : root (c ^ 3 * d ^ 3) = some (Real.sqrt (c ^ 3 * d ^ 3)) := root_nonneg (by positivity)
    have h2 : (c + d) ^ 3 ≠ 0 := by positivity
    simp [combiningRules, fnOf, callFn, CombiningDict.volumetric, weight, pA, pB, pAq, pBq, bind, Except.bind, pure,
      Except.pure, root_nonneg h, h1, over_ne h2, times]
  · intro h
    simp [combiningRules, fnOf, callFn, CombiningDict.weighted, weight, pA, pB, pAq, pBq, bind, Except.bind, pure,
      Except.pure, h]
  · intro h hc hd he hf
    have h1 : root (c ^ 3 * d ^ 3) = some (Real.sqrt (c ^ 3 * d ^ 3)) := root_nonneg (by positivity)
    have h2 : (c + d) ^ 3 ≠ 0 := by positivity
    have h3 : c + d ≠ 0 := by positivity
    have he3 : 1 < e ^ 3 := one_lt_pow₀ he (by norm_num)
    have hf3 : 1 < f ^ 3 := one_lt_pow₀ hf (by norm_num)
    have h4 : root ((e ^ 3 - 1) * (f ^ 3 - 1)) = some (Real.sqrt ((e ^ 3 - 1) * (f ^ 3 - 1))) :=
      root_nonneg (mul_nonneg (by linarith) (by linarith))
    have hw : 1 < (e * c + f * d) / (c + d) := by
      rw [lt_div_iff₀ (by positivity)]
      nlinarith
    have h5 : ((e * c + f * d) / (c + d)) ^ 3 - 1 ≠ 0 := by
      have := one_lt_pow₀ hw (n := 3) (by norm_num)
      linarith
    simp [combiningRules, fnOf, callFn, CombiningDict.berthelot, CombiningDict.weighted, weight, pA, pB, pAq, pBq, pAs, pBs, bind,
      Except.bind, pure, Except.pure, root_nonneg h, h1, h4, over_ne h2, over_ne h5, times, h3]

/-- **C145, faulty rules.**  A name that is not a rule, weighting parameters for a rule that has none, missing ones for a rule
that needs them, and any unknown option are refused. -/
theorem c145_faulty (A B : Group) (p : String) (r : Rule) (s : String) (hs : r.function = some s) :
    (s ∉ ["None", "mean", "geometric_mean", "volumetric_geometric_mean", "weighted_mean", "mie_exponent",
        "square_well_berthelot", "multipole"] → ∃ x, combiningRules multi A B p r = .error x) ∧
    (s ∈ ["mean", "geometric_mean", "mie_exponent", "multipole"] → r.weights ≠ none →
      combiningRules multi A B p r = .error .typeError) ∧
    (s ∈ ["volumetric_geometric_mean", "weighted_mean", "square_well_berthelot"] → (r.weights.getD []) = [] →
      ∃ x, combiningRules multi A B p r = .error x) ∧
    (s = "square_well_berthelot" → (r.weights.getD []).length < 2 → ∃ x, combiningRules multi A B p r = .error x) ∧
    (s ≠ "None" → (∃ o ∈ r.others, o ∉ ["temperature", "mode", "scaled"]) →
      ∃ x, combiningRules multi A B p r = .error x) := by
  have hf : combiningRules multi A B p r = callFn multi A B p r (fnOf s) := by
    simp only [combiningRules, hs, Option.getD_some]
  have hvol : (r.weights.getD []) = [] → ∃ x, CombiningDict.volumetric A B p r = .error x := by
    intro h
    unfold CombiningDict.volumetric
    simp only [bind, Except.bind]
    cases param A p with
    | error x => exact ⟨x, rfl⟩
    | ok a =>
      cases param B p with
      | error x => exact ⟨x, rfl⟩
      | ok b => exact ⟨.indexError, by simp [weight, h]⟩
  have hber : (r.weights.getD []).length < 2 → ∃ x, CombiningDict.berthelot A B p r = .error x := by
    intro h
    unfold CombiningDict.berthelot
    simp only [bind, Except.bind]
    cases weight r 0 with
    | error x => exact ⟨x, rfl⟩
    | ok q =>
      have : weight r 1 = .error .indexError := by
        unfold weight
        rw [List.getElem?_eq_none (by omega)]
      exact ⟨.indexError, by simp only [this]⟩
  refine ⟨?_, ?_, ?_, ?_, ?_⟩
  · intro h
    rw [hf]
    simp only [List.mem_cons, List.not_mem_nil, or_false, not_or] at h
    obtain ⟨h1, h2, h3, h4, h5, h6, h7, h8⟩ := h
    by_cases h9 : s = "np" ∨ s = "logging" ∨ s = "logger"
    · exact ⟨.typeError, by simp [fnOf, h1, h2, h3, h4, h5, h6, h7, h8, h9, callFn]⟩
    · exact ⟨.importError, by simp [fnOf, h1, h2, h3, h4, h5, h6, h7, h8, h9, callFn]⟩
  · intro h hw
    rw [hf]
    have hw' : r.weights.isSome = true := by
      cases hr : r.weights with
      | none => exact absurd hr hw
      | some l => rfl
    simp only [List.mem_cons, List.not_mem_nil, or_false] at h
    rcases h with rfl | rfl | rfl | rfl <;> simp [fnOf, callFn, hw']
  · intro h hw
    rw [hf]
    simp only [List.mem_cons, List.not_mem_nil, or_false] at h
    by_cases ho : r.others = []
    · rcases h with rfl | rfl | rfl
      · obtain ⟨x, hx⟩ := hvol hw
        exact ⟨x, by simp [fnOf, callFn, ho, hx, bind, Except.bind]⟩
      · exact ⟨.indexError, by simp [fnOf, callFn, ho, weight, hw, bind, Except.bind]⟩
      · obtain ⟨x, hx⟩ := hber (by simp [hw])
        exact ⟨x, by simp [fnOf, callFn, ho, hx, bind, Except.bind]⟩
    · rcases h with rfl | rfl | rfl <;> exact ⟨.typeError, by simp [fnOf, callFn, ho]⟩
  · intro h hw
    subst h
    rw [hf]
    by_cases ho : r.others = []
    · obtain ⟨x, hx⟩ := hber hw
      exact ⟨x, by simp [fnOf, callFn, ho, hx, bind, Except.bind]⟩
    · exact ⟨.typeError, by simp [fnOf, callFn, ho]⟩
  · rintro hn ⟨o, ho, hno⟩
    rw [hf]
    have hne : r.others ≠ [] := List.ne_nil_of_mem ho
    have hex : ∃ o ∈ r.others, o ≠ "temperature" ∧ o ≠ "mode" ∧ o ≠ "scaled" := by
      refine ⟨o, ho, ?_⟩
      simpa using hno
    have hx : ∀ fn : Fn, fn ≠ .none → ∃ x, callFn multi A B p r fn = .error x := by
      intro fn hfn
      cases fn
      case none => exact absurd rfl hfn
      case multipole => exact ⟨.typeError, by simp only [callFn]; rw [if_pos (Or.inr hex)]⟩
      all_goals first
        | exact ⟨_, rfl⟩
        | exact ⟨.typeError, by simp [callFn, hne]⟩
    apply hx
    unfold fnOf
    rw [if_neg hn]
    intro hc
    split at hc
    · cases hc
    · repeat' (first | cases hc | split at hc)

private theorem param_none {g : Group} {p : String} (h : g p = none) : param g p = .error .keyError := by
  unfold param; rw [h]

/-- **C145, missing parameters.**  Every rule but `None` refuses a pair in which one of the groups lacks the parameter, and the
rules with weights one in which the first weight is missing.  (The multipole rule is another package's.) -/
theorem c145_missing (A B : Group) (p : String) (r : Rule) (s : String) (hs : r.function = some s)
    (hn : s ≠ "None" ∧ s ≠ "multipole") :
    (A p = none ∨ B p = none → ∃ x, combiningRules multi A B p r = .error x) ∧
    (∀ q, s ∈ ["volumetric_geometric_mean", "weighted_mean", "square_well_berthelot"] →
      (r.weights.getD []).head? = some q → A q = none ∨ B q = none → ∃ x, combiningRules multi A B p r = .error x) := by
  have hf : combiningRules multi A B p r = callFn multi A B p r (fnOf s) := by
    simp only [combiningRules, hs, Option.getD_some]
  have two : ∀ (a b : String) (k : ℝ → ℝ → Except PyErr (List (String × Option ℝ))), A a = none ∨ B b = none →
      ∃ x, (do let u ← param A a; let v ← param B b; k u v) = .error x := by
    intro a b k h
    simp only [bind, Except.bind]
    rcases h with h | h
    · exact ⟨.keyError, by simp only [param_none h]⟩
    · cases param A a with
      | error x => exact ⟨x, rfl⟩
      | ok u => exact ⟨.keyError, by simp only [param_none h]⟩
  have hwt : ∀ q, A p = none ∨ B p = none ∨ A q = none ∨ B q = none →
      ∃ x, CombiningDict.weighted A B p q = .error x := by
    intro q h
    unfold CombiningDict.weighted
    simp only [bind, Except.bind]
    unfold param
    cases h1 : A p <;> cases h2 : B p <;> cases h3 : A q <;> cases h4 : B q <;> simp_all
  have hvol : (A p = none ∨ B p = none) ∨ (∃ q, (r.weights.getD []).head? = some q ∧ (A q = none ∨ B q = none)) →
      ∃ x, CombiningDict.volumetric A B p r = .error x := by
    intro h
    unfold CombiningDict.volumetric weight param
    simp only [bind, Except.bind]
    cases h1 : A p <;> cases h2 : B p <;> simp only [] <;> try exact ⟨_, rfl⟩
    rcases h with h | ⟨q, hq, h⟩
    · simp_all
    · rw [← List.head?_eq_getElem?, hq]
      cases h3 : A q <;> cases h4 : B q <;> simp_all
  have hber : (A p = none ∨ B p = none) ∨ (∃ q, (r.weights.getD []).head? = some q ∧ (A q = none ∨ B q = none)) →
      ∃ x, CombiningDict.berthelot A B p r = .error x := by
    intro h
    unfold CombiningDict.berthelot
    simp only [bind, Except.bind]
    cases hw0 : weight r 0 with
    | error x => exact ⟨x, rfl⟩
    | ok q' =>
      cases hw1 : weight r 1 with
      | error x => exact ⟨x, rfl⟩
      | ok q'' =>
        simp only []
        unfold param
        cases h1 : A p <;> cases h2 : B p <;> simp only [] <;> try exact ⟨_, rfl⟩
        rcases h with h | ⟨q, hq, h⟩
        · simp_all
        · unfold weight at hw0
          rw [← List.head?_eq_getElem?, hq] at hw0
          cases hw0
          cases h3 : A q' <;> cases h4 : B q' <;> simp_all
  constructor
  · intro h
    rw [hf]
    cases hfn : fnOf s with
    | none => exact absurd hfn (by unfold fnOf; rw [if_neg hn.1]; split_ifs <;> simp)
    | multipole =>
      refine absurd hfn ?_
      unfold fnOf
      simp only [if_neg hn.1, if_neg hn.2]
      split_ifs <;> simp
    | unknown => exact ⟨_, rfl⟩
    | notCallable => exact ⟨_, rfl⟩
    | mean => simp only [callFn]; split_ifs; exacts [⟨_, rfl⟩, two _ _ _ h]
    | geometric => simp only [callFn]; split_ifs; exacts [⟨_, rfl⟩, two _ _ _ h]
    | mieExponent => simp only [callFn]; split_ifs; exacts [⟨_, rfl⟩, two _ _ _ h]
    | volumetric =>
      simp only [callFn]
      obtain ⟨x, hx⟩ := hvol (Or.inl h)
      split_ifs
      exacts [⟨_, rfl⟩, ⟨x, by simp [hx, bind, Except.bind]⟩]
    | weighted =>
      simp only [callFn]
      split_ifs
      · exact ⟨_, rfl⟩
      · cases hw0 : weight r 0 with
        | error x => exact ⟨x, rfl⟩
        | ok q =>
          obtain ⟨x, hx⟩ := hwt q (by tauto)
          exact ⟨x, by simp [hx, bind, Except.bind]⟩
    | berthelot =>
      simp only [callFn]
      obtain ⟨x, hx⟩ := hber (Or.inl h)
      split_ifs
      exacts [⟨_, rfl⟩, ⟨x, by simp [hx, bind, Except.bind]⟩]
  · intro q hm hq h
    rw [hf]
    simp only [List.mem_cons, List.not_mem_nil, or_false] at hm
    by_cases ho : r.others = []
    · rcases hm with rfl | rfl | rfl
      · obtain ⟨x, hx⟩ := hvol (Or.inr ⟨q, hq, h⟩)
        exact ⟨x, by simp [fnOf, callFn, ho, hx, bind, Except.bind]⟩
      · obtain ⟨x, hx⟩ := hwt q (by tauto)
        have hw0 : weight r 0 = .ok q := by unfold weight; rw [← List.head?_eq_getElem?, hq]
        exact ⟨x, by simp [fnOf, callFn, ho, hw0, hx, bind, Except.bind]⟩
      · obtain ⟨x, hx⟩ := hber (Or.inr ⟨q, hq, h⟩)
        exact ⟨x, by simp [fnOf, callFn, ho, hx, bind, Except.bind]⟩
    · rcases hm with rfl | rfl | rfl <;> exact ⟨.typeError, by simp [fnOf, callFn, ho]⟩

/-- **C145, weights without a sum.**  With weights that cancel, the weighted mean divides python numbers by zero, which raises; the
volumetric mean divides numpy numbers, which gives no number and no exception. -/
theorem c145_weightless (A B : Group) (p q : String) (more : List String) (a b c d : ℝ) (hA : A p = some a)
    (hB : B p = some b) (hAq : A q = some c) (hBq : B q = some d) (h : c + d = 0) :
    combiningRules multi A B p { function := some "weighted_mean", weights := some (q :: more) } = .error .zeroDivision ∧
    combiningRules multi A B p { function := some "volumetric_geometric_mean", weights := some (q :: more) } =
      .ok [(p, none)] := by
  have pA := param_some hA
  have pB := param_some hB
  have pAq := param_some hAq
  have pBq := param_some hBq
  refine ⟨by simp [combiningRules, fnOf, callFn, CombiningDict.weighted, weight, pA, pB, pAq, pBq, bind, Except.bind, h,
    throw, throwThe, MonadExceptOf.throw], ?_⟩
  have ho : over ((root (c ^ 3 * d ^ 3)).map (· * 8)) ((c + d) ^ 3) = none := by
    unfold over; rw [if_pos (by rw [h]; norm_num)]
  have ht : times (root (a * b)) none = none := by cases root (a * b) <;> rfl
  simp [combiningRules, fnOf, callFn, CombiningDict.volumetric, weight, pA, pB, pAq, pBq, bind, Except.bind, pure,
    Except.pure, ho, ht]

/-- No rule of the dictionary is the multipole rule. -/
def NoMultipole (d : PyDict String Rule) : Prop := ∀ k r, d.get? k = some r → r.function ≠ some "multipole"

private theorem single_call (A B : Group) (p : String) (r : Rule) (fn : Fn) (hfn : fn ≠ .multipole)
    (l : List (String × Option ℝ)) (h : callFn multi A B p r fn = .ok l) : l = [] ∨ ∃ v, l = [(p, v)] := by
  cases fn
  case none => left; cases h; rfl
  case multipole => exact absurd rfl hfn
  case unknown => cases h
  case notCallable => cases h
  all_goals
    right
    simp only [callFn, bind, Except.bind, pure, Except.pure] at h
    repeat' split at h
    all_goals first
      | (cases h; exact ⟨_, rfl⟩)
      | cases h

private theorem not_multipole (r : Rule) (h : r.function ≠ some "multipole") : fnOf (r.function.getD "mean") ≠ .multipole := by
  cases hr : r.function with
  | none => simp [fnOf]
  | some s =>
    have hs : s ≠ "multipole" := by rintro rfl; exact h hr
    simp only [Option.getD_some]
    unfold fnOf
    intro hc
    repeat' (first | cases hc | (exact hs ‹_›) | split at hc)

private theorem single_output (beads : List String) (lib : String → Group) (cross : String → String → Group)
    (d : PyDict String Rule) (hd : NoMultipole d) : SingleOutput (input multi beads lib cross d) := by
  intro key bi bj l h
  simp only [input] at h
  split at h
  · cases h
  · rename_i r hr
    exact single_call multi _ _ _ r _ (not_multipole r (hd key r hr)) l h

/-- The rules in force: the user's for the parameters the user names, the ones of the equation of state for the others. -/
def InForce (d : PyDict String Rule) (user : Option (PyDict String Rule)) (k : String) : Option Rule :=
  match user.bind (·.get? k) with
  | some r => some r
  | none => d.get? k

/-- The dictionary that the last computation of the matrices used. -/
private theorem in_force (beads : List String) (lib : String → Group) (cross : String → String → Group)
    (d : PyDict String Rule) (user : Option (PyDict String Rule)) (hu : ∀ u, user = some u → u.WF)
    (M : Mats String (Option ℝ)) (h : matrices multi beads lib cross d user = .ok M) :
    ∃ d', crossInteraction (input multi beads lib cross d') = .ok M ∧ ∀ k, d'.get? k = InForce d user k := by
  unfold matrices at h
  split at h
  · cases h
  · rename_i M0 h0
    cases user with
    | none => cases h; exact ⟨d, h0, fun k => rfl⟩
    | some u =>
      refine ⟨d.update u, h, ?_⟩
      intro k
      rw [PyDict.get?_update _ _ (hu u rfl)]
      simp only [InForce, Option.bind_some]
      cases u.get? k <;> rfl

/-- **C145, the rule of a pair.**  In the matrices of an accepted model (rules other than the multipole rule), two groups
without an explicit cross value have, for each parameter, what the rule in force gives for them (zero when that rule is
`"None"`), at both places; with an explicit value they have that value whatever the rule. -/
theorem c145_pair (beads : List String) (lib : String → Group) (cross : String → String → Group) (d : PyDict String Rule)
    (user : Option (PyDict String Rule)) (hu : ∀ u, user = some u → u.WF)
    (hm : ∀ k r, InForce d user k = some r → r.function ≠ some "multipole") (M : Mats String (Option ℝ))
    (h : matrices multi beads lib cross d user = .ok M) (k : String) (r : Rule) (hk : InForce d user k = some r) (i j : Nat)
    (hij : i < j) (bi bj : String) (hbi : beads[i]? = some bi) (hbj : beads[j]? = some bj) :
    M k i j = M k j i ∧
    (∀ v, cross bi bj k = some v ∨ (cross bi bj k = none ∧ cross bj bi k = some v) → M k i j = some v) ∧
    (cross bi bj k = none → cross bj bi k = none →
      (∀ v, combiningRules multi (lib bi) (lib bj) k r = .ok [(k, v)] → M k i j = v) ∧
      (combiningRules multi (lib bi) (lib bj) k r = .ok [] → M k i j = some 0)) := by
  obtain ⟨d', hd', hget⟩ := in_force multi beads lib cross d user hu M h
  have hsing := single_output multi beads lib cross d' (fun k r hr => hm k r (by rw [← hget, hr]))
  have hkd : d'.get? k = some r := by rw [hget, hk]
  have hkk : k ∈ (input multi beads lib cross d').keys := (PyDict.mem_keys_iff d' k).mpr ⟨r, hkd⟩
  obtain ⟨hjl, ej⟩ := List.getElem?_eq_some_iff.mp hbj
  obtain ⟨hil, ei⟩ := List.getElem?_eq_some_iff.mp hbi
  obtain ⟨e1, e2⟩ := c08_entries_partial _ hsing M hd' k hkk i j hij hjl
  have e1' : M k i j = (pairValue (input multi beads lib cross d') bi bj k).getD 0 := by
    rw [e1, ← ei, ← ej]; rfl
  have hrule : (input multi beads lib cross d').rule k bi bj = combiningRules multi (lib bi) (lib bj) k r := by
    simp only [input, hkd]
  refine ⟨e2.symm, ?_, ?_⟩
  · rintro v (hv | ⟨hn, hv⟩)
    · rw [e1']; simp [pairValue, input, hv]
    · rw [e1']; simp [pairValue, input, hv, hn]
  · intro h1 h2
    have c1 : (input multi beads lib cross d').cross bi bj k = none := by simp [input, h1]
    have c2 : (input multi beads lib cross d').cross bj bi k = none := by simp [input, h2]
    refine ⟨?_, ?_⟩
    · intro v hv
      rw [e1']; simp only [pairValue, c1, c2, hrule, hv, Option.getD_some]
    · intro hv
      rw [e1']; simp only [pairValue, c1, c2, hrule, hv, Option.getD_none]; rfl

/-- **C145, SAFT-γ-Mie without rules of the user.**  Two groups without explicit cross values have the arithmetic mean size, the
combined exponents and the volumetric mean depth. -/
theorem c145_mie (beads : List String) (lib : String → Group) (cross : String → String → Group)
    (M : Mats String (Option ℝ)) (h : matrices multi beads lib cross mieRules none = .ok M) (i j : Nat) (hij : i < j)
    (A B : String) (hA : beads[i]? = some A) (hB : beads[j]? = some B)
    (hc : ∀ k, cross A B k = none ∧ cross B A k = none)
    (σ σ' ε ε' r r' a a' : ℝ) (h1 : lib A "sigma" = some σ) (h2 : lib B "sigma" = some σ') (h3 : lib A "epsilon" = some ε)
    (h4 : lib B "epsilon" = some ε') (h5 : lib A "lambdar" = some r) (h6 : lib B "lambdar" = some r')
    (h7 : lib A "lambdaa" = some a) (h8 : lib B "lambdaa" = some a') (p1 : 0 < σ) (p2 : 0 < σ') (p3 : 0 ≤ ε) (p4 : 0 ≤ ε')
    (p5 : 3 ≤ r) (p6 : 3 ≤ r') (p7 : 3 ≤ a) (p8 : 3 ≤ a') :
    M "sigma" i j = some ((σ + σ') / 2) ∧ M "lambdar" i j = some (3 + Real.sqrt ((r - 3) * (r' - 3))) ∧
    M "lambdaa" i j = some (3 + Real.sqrt ((a - 3) * (a' - 3))) ∧
    M "epsilon" i j = some (Real.sqrt (ε * ε') * (Real.sqrt (σ ^ 3 * σ' ^ 3) * 8 / (σ + σ') ^ 3)) := by
  have hm : ∀ k r, InForce mieRules none k = some r → r.function ≠ some "multipole" := by
    intro k r hr
    simp only [InForce, Option.bind_none, mieRules, PyDict.get?, PyDict.lookupL] at hr
    repeat' split at hr
    all_goals first
      | (cases hr; simp)
      | cases hr
  have key := fun k r hk => (c145_pair multi beads lib cross mieRules none (by intro u hu; cases hu) hm M h k r hk i j hij A B hA hB).2.2
    (hc k).1 (hc k).2
  refine ⟨?_, ?_, ?_, ?_⟩
  · exact (key "sigma" { function := some "mean" } rfl).1 _
      (c145_rules multi (lib A) (lib B) "sigma" "sigma" "sigma" [] _ _ _ _ _ _ h1 h2 h1 h2 h1 h2).2.1
  · exact (key "lambdar" { function := some "mie_exponent" } rfl).1 _
      ((c145_rules multi (lib A) (lib B) "lambdar" "sigma" "sigma" [] _ _ _ _ _ _ h5 h6 h1 h2 h1 h2).2.2.2.1
        (mul_nonneg (by linarith) (by linarith)))
  · exact (key "lambdaa" { function := some "mie_exponent" } rfl).1 _
      ((c145_rules multi (lib A) (lib B) "lambdaa" "sigma" "sigma" [] _ _ _ _ _ _ h7 h8 h1 h2 h1 h2).2.2.2.1
        (mul_nonneg (by linarith) (by linarith)))
  · exact (key "epsilon" { function := some "volumetric_geometric_mean", weights := some ["sigma"] } rfl).1 _
      ((c145_rules multi (lib A) (lib B) "epsilon" "sigma" "sigma" [] _ _ _ _ _ _ h3 h4 h1 h2 h1 h2).2.2.2.2.1
        (mul_nonneg p3 p4) p1 p2)

/-- **C145, SAFT-γ-SW without rules of the user.**  Two groups without explicit cross values have the arithmetic mean size, the
range weighted with the sizes, and the square-well depth. -/
theorem c145_sw (beads : List String) (lib : String → Group) (cross : String → String → Group)
    (M : Mats String (Option ℝ)) (h : matrices multi beads lib cross swRules none = .ok M) (i j : Nat) (hij : i < j)
    (A B : String) (hA : beads[i]? = some A) (hB : beads[j]? = some B)
    (hc : ∀ k, cross A B k = none ∧ cross B A k = none)
    (σ σ' ε ε' l l' : ℝ) (h1 : lib A "sigma" = some σ) (h2 : lib B "sigma" = some σ') (h3 : lib A "epsilon" = some ε)
    (h4 : lib B "epsilon" = some ε') (h5 : lib A "lambda" = some l) (h6 : lib B "lambda" = some l') (p1 : 0 < σ)
    (p2 : 0 < σ') (p3 : 0 ≤ ε) (p4 : 0 ≤ ε') (p5 : 1 < l) (p6 : 1 < l') :
    M "sigma" i j = some ((σ + σ') / 2) ∧ M "lambda" i j = some ((l * σ + l' * σ') / (σ + σ')) ∧
    M "epsilon" i j = some (Real.sqrt (ε * ε') * (Real.sqrt (σ ^ 3 * σ' ^ 3) * 8 / (σ + σ') ^ 3) *
      (Real.sqrt ((l ^ 3 - 1) * (l' ^ 3 - 1)) / (((l * σ + l' * σ') / (σ + σ')) ^ 3 - 1))) := by
  have hm : ∀ k r, InForce swRules none k = some r → r.function ≠ some "multipole" := by
    intro k r hr
    simp only [InForce, Option.bind_none, swRules, PyDict.get?, PyDict.lookupL] at hr
    repeat' split at hr
    all_goals first
      | (cases hr; simp)
      | cases hr
  have key := fun k r hk => (c145_pair multi beads lib cross swRules none (by intro u hu; cases hu) hm M h k r hk i j hij A B hA hB).2.2
    (hc k).1 (hc k).2
  refine ⟨?_, ?_, ?_⟩
  · exact (key "sigma" { function := some "mean" } rfl).1 _
      (c145_rules multi (lib A) (lib B) "sigma" "sigma" "sigma" [] _ _ _ _ _ _ h1 h2 h1 h2 h1 h2).2.1
  · exact (key "lambda" { function := some "weighted_mean", weights := some ["sigma"] } rfl).1 _
      ((c145_rules multi (lib A) (lib B) "lambda" "sigma" "sigma" [] _ _ _ _ _ _ h5 h6 h1 h2 h1 h2).2.2.2.2.2.1
        (by positivity))
  · exact (key "epsilon" { function := some "square_well_berthelot", weights := some ["sigma", "lambda"] } rfl).1 _
      ((c145_rules multi (lib A) (lib B) "epsilon" "sigma" "lambda" [] _ _ _ _ _ _ h3 h4 h1 h2 h5 h6).2.2.2.2.2.2
        (mul_nonneg p3 p4) p1 p2 p5 p6)

/-- **C145, acceptance.**  If every group has every parameter that has a rule, no rule is the multipole rule, and every rule can be
evaluated for every pair without an explicit value, then the rules are accepted; and if all rules name their function and one
cannot be evaluated for such a pair, they are refused with a `ValueError`. -/
theorem c145_outcome (beads : List String) (lib : String → Group) (cross : String → String → Group) (d : PyDict String Rule)
    (hd : NoMultipole d) (hself : ∀ b ∈ beads, ∀ k r, d.get? k = some r → lib b k ≠ none) :
    ((∀ k r (i j : Nat) bi bj, d.get? k = some r → i < j → beads[i]? = some bi → beads[j]? = some bj →
        cross bi bj k ≠ none ∨ cross bj bi k ≠ none ∨ ∃ l, combiningRules multi (lib bi) (lib bj) k r = .ok l) →
      ∃ M, matrices multi beads lib cross d none = .ok M) ∧
    ((∀ k r, d.get? k = some r → r.function ≠ none) →
      (∃ k r, ∃ (i j : Nat), ∃ bi bj, d.get? k = some r ∧ i < j ∧ beads[i]? = some bi ∧ beads[j]? = some bj ∧
        cross bi bj k = none ∧ cross bj bi k = none ∧ ∃ x, combiningRules multi (lib bi) (lib bj) k r = .error x) →
      matrices multi beads lib cross d none = .error .valueError) := by
  have hkeys : ∀ k ∈ (input multi beads lib cross d).keys, ∃ r, d.get? k = some r :=
    fun k hk => (PyDict.mem_keys_iff d k).mp hk
  have hs : ∀ b ∈ (input multi beads lib cross d).beads, ∀ k ∈ (input multi beads lib cross d).keys,
      ((input multi beads lib cross d).self b k).isSome := by
    intro b hb k hk
    obtain ⟨r, hr⟩ := hkeys k hk
    have := hself b hb k r hr
    simp only [input]
    cases hl : lib b k with
    | none => exact absurd hl this
    | some v => rfl
  have hsing := single_output multi beads lib cross d hd
  constructor
  · intro hav
    obtain ⟨M, hM⟩ := ((c08_outcome _ hsing).2 hs).1 (by
      intro k hk i j bi bj hij ei ej
      obtain ⟨r, hr⟩ := hkeys k hk
      unfold Available
      simp only [input, hr]
      rcases hav k r i j bi bj hr hij ei ej with h | h | h
      · left; cases hx : cross bi bj k with
        | none => exact absurd hx h
        | some v => rfl
      · right; left; cases hx : cross bj bi k with
        | none => exact absurd hx h
        | some v => rfl
      · right; right; exact h)
    exact ⟨M, by simp only [matrices, hM]⟩
  · rintro hfun ⟨k, r, i, j, bi, bj, hr, hij, ei, ej, c1, c2, x, hx⟩
    have hv : ∀ k ∈ (input multi beads lib cross d).keys, (input multi beads lib cross d).onFail k = .valueError := by
      intro k hk
      obtain ⟨r, hr⟩ := hkeys k hk
      simp only [input, hr, Option.bind_some]
      cases hf : r.function with
      | none => exact absurd hf (hfun k r hr)
      | some s => rfl
    have := ((c08_outcome _ hsing).2 hs).2 hv ⟨k, (PyDict.mem_keys_iff d k).mpr ⟨r, hr⟩, i, j, bi, bj, hij, ei, ej, by
      unfold Available
      simp only [input, hr, c1, c2, hx]
      simp⟩
    simp only [matrices, this]

/-- Two groups with all the parameters of the Mie potential. -/
noncomputable def pairLib : String → Group := fun b k =>
  if k = "sigma" then (if b = "A" then some 1 else some 3) else if k = "epsilon" then some 4 else some 12

/-- **C145 is violated: the rule `"None"`.**  It is accepted and leaves the cross parameter zero. -/
theorem c145_violated_none (M : Mats String (Option ℝ)) (lib : String → Group) (beads : List String)
    (u : PyDict String Rule) (hu : u.WF) (k : String) (hk : u.get? k = some { function := some "None" })
    (hm : ∀ k r, InForce mieRules (some u) k = some r → r.function ≠ some "multipole")
    (h : matrices multi beads lib (fun _ _ _ => none) mieRules (some u) = .ok M) (i j : Nat) (hij : i < j)
    (hj : j < beads.length) : M k i j = some 0 := by
  have hkf : InForce mieRules (some u) k = some { function := some "None" } := by simp [InForce, hk]
  exact ((c145_pair multi beads lib _ mieRules (some u) (by intro u' hu'; cases hu'; exact hu) hm M h k _ hkf i j hij
    beads[i] beads[j] (List.getElem?_eq_getElem _) (List.getElem?_eq_getElem hj)).2.2 rfl rfl).2
    (by simp [combiningRules, fnOf, callFn])

/-- **C145 is violated: a rule given without its function.**  The entry of the user replaces the whole entry of the equation of
state, so naming only the weighting parameters selects the mean, which has none.  The model that was accepted without it is then
refused, and not with the `ValueError` that says which rule failed for which groups but with a `KeyError`. -/
theorem c145_violated_error (beads : List String) (lib : String → Group) (cross : String → String → Group)
    (d : PyDict String Rule) (hd : NoMultipole d) (M : Mats String (Option ℝ))
    (h : matrices multi beads lib cross d none = .ok M) (k : String) (hk : k ∈ d.keys) (ws : List String) (i j : Nat)
    (hij : i < j) (bi bj : String) (hbi : beads[i]? = some bi) (hbj : beads[j]? = some bj) (hc1 : cross bi bj k = none)
    (hc2 : cross bj bi k = none) :
    matrices multi beads lib cross d (some ⟨[(k, { function := none, weights := some ws })]⟩) = .error .keyError := by
  have h0 : crossInteraction (input multi beads lib cross d) = .ok M := by
    unfold matrices at h
    split at h
    · cases h
    · rename_i M0 h0; cases h; exact h0
  have hup : d.update ⟨[(k, ({ function := none, weights := some ws } : Rule))]⟩ =
      d.set k { function := none, weights := some ws } := rfl
  have hkeys : (d.set k { function := none, weights := some ws }).keys = d.keys := PyDict.keys_set_of_mem _ _ _ hk
  have hd' : NoMultipole (d.set k { function := none, weights := some ws }) := by
    intro k' r hr
    rw [PyDict.get?_set] at hr
    split at hr
    · cases hr; simp
    · exact hd k' r hr
  have hfail : ∀ A B : Group, combiningRules multi A B k { function := none, weights := some ws } = .error .typeError := by
    intro A B
    simp [combiningRules, fnOf, callFn]
  obtain ⟨hself, hav⟩ := (c08_raises _ (single_output multi beads lib cross d hd)).2 M h0
  have hsing' := single_output multi beads lib cross _ hd'
  have hself' : ∀ b ∈ (input multi beads lib cross (d.set k { function := none, weights := some ws })).beads,
      ∀ key ∈ (input multi beads lib cross (d.set k { function := none, weights := some ws })).keys,
      ((input multi beads lib cross (d.set k { function := none, weights := some ws })).self b key).isSome := by
    intro b hb key hkey
    have : key ∈ d.keys := by rw [← hkeys]; exact hkey
    exact hself b hb key this
  have hnot : ¬ Available (input multi beads lib cross (d.set k { function := none, weights := some ws })) bi bj k := by
    unfold Available
    simp only [input, PyDict.get?_set_self, hc1, hc2, hfail]
    simp
  simp only [matrices, h0, hup]
  cases hres : crossInteraction (input multi beads lib cross (d.set k { function := none, weights := some ws })) with
  | ok M' =>
    have := ((c08_raises _ hsing').2 M' hres).2 k (by change k ∈ PyDict.keys _; rw [hkeys]; exact hk) i j bi bj hij hbi hbj
    exact absurd this hnot
  | error e =>
    obtain ⟨key, hkey, a, b, ba, bb, hab, ea, eb, hn, he⟩ := (c08_raises _ hsing').1 e hres hself'
    by_cases hkk : key = k
    · subst hkk
      rw [he]
      simp [input, PyDict.get?_set_self]
    · have hget : (d.set k { function := none, weights := some ws }).get? key = d.get? key :=
        PyDict.get?_set_ne _ _ (fun e => hkk e.symm)
      have hkey' : key ∈ d.keys := by rw [← hkeys]; exact hkey
      have := hav key hkey' a b ba bb hab ea eb
      refine absurd ?_ hn
      unfold Available at this ⊢
      simpa only [input, hget] using this

/-- **C145 is violated: `additional_outputs`.**  gamma_mie.py:1582-1585 handles an entry `additional_outputs` of a rule, but no rule
accepts it: whatever function it is given with (other than `"None"`) fails. -/
theorem c145_violated_additional (A B : Group) (p s : String) (ws : Option (List String)) (more : List String)
    (hs : s ≠ "None") :
    ∃ x, combiningRules multi A B p { function := some s, weights := ws, others := "additional_outputs" :: more } = .error x :=
  (c145_faulty multi A B p _ s rfl).2.2.2.2 hs ⟨"additional_outputs", by simp, by simp⟩

/-- **C145 is violated: rules are not checked for a single group.**  Any rules, of any names, are accepted. -/
theorem c145_violated_unnoticed (b : String) (lib : String → Group) (cross : String → String → Group)
    (d : PyDict String Rule) (hself : ∀ k r, d.get? k = some r → lib b k ≠ none) :
    ∃ M, matrices multi [b] lib cross d none = .ok M := by
  have hinit : ∃ M0, initDiag (input multi [b] lib cross d) = .ok M0 := by
    unfold initDiag
    rw [if_pos]
    · exact ⟨_, rfl⟩
    · simp only [List.all_eq_true]
      intro k hk b' hb'
      obtain ⟨r, hr⟩ := (PyDict.mem_keys_iff d k).mp hk
      have hb'' : b' = b := by simpa [input] using hb'
      subst hb''
      simp only [input]
      cases hl : lib b' k with
      | none => exact absurd hl (hself k r hr)
      | some v => rfl
  obtain ⟨M0, h0⟩ := hinit
  have ht : triples (input multi [b] lib cross d) = [] := by
    have : (input multi [b] lib cross d).beads = [b] := rfl
    simp [triples, this]
  exact ⟨M0, by simp only [matrices, crossInteraction, h0, ht, loop]⟩

/-- Non-vacuity: two groups are accepted with the rules of the Mie potential. -/
example : ∃ M, matrices multi ["A", "B"] pairLib (fun _ _ _ => none) mieRules none = .ok M := by
  apply (c145_outcome multi _ pairLib _ mieRules ?_ ?_).1
  · intro k r i j bi bj hr hij ei ej
    right; right
    obtain ⟨hi, rfl⟩ := List.getElem?_eq_some_iff.mp ei
    obtain ⟨hj, rfl⟩ := List.getElem?_eq_some_iff.mp ej
    have hi0 : i = 0 := by simp at hj; omega
    have hj1 : j = 1 := by simp at hj; omega
    subst hi0; subst hj1
    have R := fun p a b ha hb => c145_rules multi (pairLib "A") (pairLib "B") p "sigma" "sigma" [] a b 1 3 1 3 ha hb
      (by simp [pairLib]) (by simp [pairLib]) (by simp [pairLib]) (by simp [pairLib])
    simp only [mieRules, PyDict.get?, PyDict.lookupL] at hr
    split at hr
    · cases hr; subst_vars
      exact ⟨_, (R "sigma" 1 3 (by simp [pairLib]) (by simp [pairLib])).2.1⟩
    · split at hr
      · cases hr; subst_vars
        exact ⟨_, (R "lambdar" 12 12 (by simp [pairLib]) (by simp [pairLib])).2.2.2.1 (by norm_num)⟩
      · split at hr
        · cases hr; subst_vars
          exact ⟨_, (R "lambdaa" 12 12 (by simp [pairLib]) (by simp [pairLib])).2.2.2.1 (by norm_num)⟩
        · split at hr
          · cases hr; subst_vars
            exact ⟨_, (R "epsilon" 4 4 (by simp [pairLib]) (by simp [pairLib])).2.2.2.2.1 (by norm_num) (by norm_num) (by norm_num)⟩
          · cases hr
  · intro k r hr
    simp only [mieRules, PyDict.get?, PyDict.lookupL] at hr
    repeat' split at hr
    all_goals first
      | (cases hr; simp)
      | cases hr
  · intro b hb k r hr
    simp only [pairLib]
    split
    · split <;> simp
    · split <;> simp

end Verif.Props
