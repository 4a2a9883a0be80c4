import Mathlib.Algebra.Order.Field.Basic
import Mathlib.Algebra.Order.BigOperators.Group.List
import Mathlib.Tactic.Linarith
import Mathlib.Tactic.FieldSimp
import Mathlib.Algebra.Order.Ring.Rat
import Verif.Model.PhaseDensity
import Verif.Model.CheckDensity

/-!
# C30, C33, C34: phase densities, fugacity coefficients and new compositions
-/

namespace Verif.Props

open Verif.PhaseDensity

section

variable {K : Type} [Field K] [LinearOrder K]

/-! ## C33: density and flag -/

/-- A flag says what the density is: flags 0, 1 and 2 come with a density, flags 3 and 4 with NaN. -/
def FlagMatches (s : Res K) : Prop := s.2 ≤ 4 ∧ (s.1 = none ↔ s.2 = 3 ∨ s.2 = 4)

omit [LinearOrder K] in
theorem lastRoot_flag (I : Iso K) : FlagMatches (lastRoot I) := by
  unfold lastRoot FlagMatches
  split
  · simp
  · split <;> simp

theorem oneRoot_flag (I : Iso K) (r : K) (s : Res K) (h : oneRoot I r = .ok s) : FlagMatches s := by
  unfold oneRoot at h
  split at h
  · obtain rfl := Except.ok.inj h; simp [FlagMatches]
  · split at h
    · obtain rfl := Except.ok.inj h; simp [FlagMatches]
    · split at h
      · obtain rfl := Except.ok.inj h; simp [FlagMatches]
      · cases h

theorem vaporSeed_flag (I : Iso K) (s : Res K) (b : Bool) (h : vaporSeed I = .ok (s, b)) :
    FlagMatches s := by
  unfold vaporSeed at h
  split at h
  · cases h; simp [FlagMatches]
  · split at h
    · split at h
      · split at h
        · cases h
          simp only [FlagMatches]
          split <;> simp
        · cases h; simp [FlagMatches]
      · split at h
        · cases h; exact lastRoot_flag I
        · cases h; simp [FlagMatches]
    · rename_i r _
      cases e : oneRoot I r with
      | error _ => simp only [e, bind, Except.bind] at h; cases h
      | ok t =>
        simp only [e, bind, Except.bind] at h
        cases h
        exact oneRoot_flag I r _ e
    · split at h
      · cases h; simp [FlagMatches]
      · cases h; exact lastRoot_flag I
    · cases h; simp [FlagMatches]

theorem liquidSeed_flag (I : Iso K) (s : Res K) (b : Bool) (h : liquidSeed I = .ok (s, b)) :
    FlagMatches s := by
  unfold liquidSeed at h
  split at h
  · cases h; simp [FlagMatches]
  · split at h
    · split at h
      · split at h
        · cases h
          simp only [FlagMatches]
          split <;> simp
        · cases h; simp [FlagMatches]
      · split at h
        · cases h; exact lastRoot_flag I
        · cases h; simp [FlagMatches]
    · rename_i r _
      cases e : oneRoot I r with
      | error _ => simp only [e, bind, Except.bind] at h; cases h
      | ok t =>
        simp only [e, bind, Except.bind] at h
        cases h
        exact oneRoot_flag I r _ e
    · cases h; simp [FlagMatches]
    · cases h; simp [FlagMatches]

/-- **C33** (what holds): whenever the vapour search returns, the flag is one of the five documented
values and tells whether there is a density. -/
theorem c33_vapor_flag (I : Iso K) (s : Res K) (h : vaporDensity I = .ok s) : FlagMatches s := by
  unfold vaporDensity at h
  cases e : vaporSeed I with
  | error _ => simp only [e, bind, Except.bind] at h; cases h
  | ok t =>
    obtain ⟨⟨ρ, f⟩, b⟩ := t
    have hf := vaporSeed_flag I _ _ e
    simp only [e, bind, Except.bind] at h
    cases ρ with
    | none => simp only at h; cases h; exact hf
    | some ρ =>
      simp only at h
      split at h
      · rename_i hf2
        cases e2 : vaporRefine I b ρ with
        | error _ => simp only [e2] at h; cases h
        | ok ρ' =>
          simp only [e2] at h
          cases h
          simpa [FlagMatches] using hf
      · cases h; exact hf

/-- **C33** (what holds): the same for the liquid search. -/
theorem c33_liquid_flag (I : Iso K) (s : Res K) (h : liquidDensity I = .ok s) : FlagMatches s := by
  unfold liquidDensity at h
  cases e : liquidSeed I with
  | error _ => simp only [e, bind, Except.bind] at h; cases h
  | ok t =>
    obtain ⟨⟨ρ, f⟩, b⟩ := t
    have hf := liquidSeed_flag I _ _ e
    simp only [e, bind, Except.bind] at h
    cases ρ with
    | none => simp only at h; cases h; exact hf
    | some ρ =>
      simp only at h
      split at h
      · rename_i hf2
        cases e2 : liquidRefine I b ρ with
        | error _ => simp only [e2] at h; cases h
        | ok ρ' =>
          simp only [e2] at h
          cases h
          simpa [FlagMatches] using hf
      · cases h; exact hf

theorem oneRoot_error_iff (I : Iso K) (r : K) (e : PyErr) :
    oneRoot I r = .error e ↔
      ∃ x, I.extrema = [x] ∧ I.spline r + I.P ≤ I.spline x + I.P ∧ e = .unboundLocal := by
  unfold oneRoot aboveExtremum
  rcases hx : I.extrema with _ | ⟨x, _ | ⟨y, t⟩⟩
  · simp
  · by_cases h : I.spline x + I.P < I.spline r + I.P
    · simp [h, not_le.2 h]
    · simp [h, not_lt.1 h, eq_comm]
  · simp only [List.length_cons, Nat.add_eq_zero_iff, one_ne_zero, and_false, if_false,
      List.getLast?_cons_cons]
    split
    · simp
    · split <;> simp

/-- **C33** (exactly when the flag is left undefined, vapour): a single root and a single extremum
that is not below the root in pressure. -/
theorem c33_vapor_undefined_iff (I : Iso K) (e : PyErr) :
    vaporSeed I = .error e ↔ I.nanRoot = false ∧ ∃ r x, I.roots = [r] ∧ I.extrema = [x] ∧
      I.spline r + I.P ≤ I.spline x + I.P ∧ e = .unboundLocal := by
  unfold vaporSeed
  cases hn : I.nanRoot
  · simp only [Bool.false_eq_true, if_false, true_and]
    rcases hr : I.roots with _ | ⟨r, _ | ⟨r2, _ | ⟨r3, t⟩⟩⟩
    · simp only [List.nil_eq, reduceCtorEq, false_and, exists_false, iff_false]
      split
      · split <;> simp
      · split <;> simp
    · have := oneRoot_error_iff I r e
      cases h1 : oneRoot I r with
      | error e' =>
        rw [h1] at this
        simp only [bind, Except.bind, Except.error.injEq] at this ⊢
        rw [h1]
        simp only [Except.error.injEq]
        rw [this]
        simp
      | ok s =>
        rw [h1] at this
        simp only [bind, Except.bind, reduceCtorEq, false_iff] at this ⊢
        rw [h1]
        simp only [reduceCtorEq, false_iff]
        rintro ⟨r', x, h2, h3⟩
        obtain rfl : r = r' := by simpa using h2
        exact this ⟨x, h3⟩
    · simp only [List.cons.injEq, reduceCtorEq, and_false, false_and, exists_false, iff_false]
      split <;> simp
    · simp
  · simp

/-- **C33** (exactly when the flag is left undefined, liquid): the same condition. -/
theorem c33_liquid_undefined_iff (I : Iso K) (e : PyErr) :
    liquidSeed I = .error e ↔ I.nanRoot = false ∧ ∃ r x, I.roots = [r] ∧ I.extrema = [x] ∧
      I.spline r + I.P ≤ I.spline x + I.P ∧ e = .unboundLocal := by
  unfold liquidSeed
  cases hn : I.nanRoot
  · simp only [Bool.false_eq_true, if_false, true_and]
    rcases hr : I.roots with _ | ⟨r, _ | ⟨r2, _ | ⟨r3, t⟩⟩⟩
    · simp only [List.nil_eq, reduceCtorEq, false_and, exists_false, iff_false]
      split
      · split <;> simp
      · split <;> simp
    · have := oneRoot_error_iff I r e
      cases h1 : oneRoot I r with
      | error e' =>
        rw [h1] at this
        simp only [bind, Except.bind, Except.error.injEq] at this ⊢
        rw [h1]
        simp only [Except.error.injEq]
        rw [this]
        simp
      | ok s =>
        rw [h1] at this
        simp only [bind, Except.bind, reduceCtorEq, false_iff] at this ⊢
        rw [h1]
        simp only [reduceCtorEq, false_iff]
        rintro ⟨r', x, h2, h3⟩
        obtain rfl : r = r' := by simpa using h2
        exact this ⟨x, h3⟩
    · simp
    · simp
  · simp

/-- **C33** (three roots): the vapour search starts from the third, the liquid search from the first
root, and with increasing positive roots the vapour is the lighter one. -/
theorem c33_three_roots [IsStrictOrderedRing K] (I : Iso K) (hn : I.nanRoot = false) (a b c : K) (t : List K)
    (hr : I.roots = a :: b :: c :: t) :
    vaporSeed I = .ok ((some (1 / c), 0), false) ∧ liquidSeed I = .ok ((some (1 / a), 1), false) ∧
      (0 < a → a < b → b < c → 1 / c < 1 / a) := by
  refine ⟨?_, ?_, fun h1 h2 h3 => one_div_lt_one_div_of_lt h1 (h2.trans h3)⟩
  · simp [vaporSeed, hn, hr]
  · simp [liquidSeed, hn, hr]

/-- **C33** (one root, both searches): without extrema the fluid is critical; a root at a higher pressure than the
last extremum is a liquid; otherwise, with two extrema, it is a vapour.  The density is that of the root. -/
theorem c33_one_root (I : Iso K) (hn : I.nanRoot = false) (r : K) (hr : I.roots = [r]) :
    (I.extrema = [] → vaporSeed I = .ok ((some (1 / r), 2), false) ∧ liquidSeed I = .ok ((some (1 / r), 2), false)) ∧
      ∀ x, I.extrema.getLast? = some x →
        (I.spline x + I.P < I.spline r + I.P →
          vaporSeed I = .ok ((some (1 / r), 1), false) ∧ liquidSeed I = .ok ((some (1 / r), 1), false)) ∧
        (I.spline r + I.P ≤ I.spline x + I.P → 2 ≤ I.extrema.length →
          vaporSeed I = .ok ((some (1 / r), 0), false) ∧ liquidSeed I = .ok ((some (1 / r), 0), false)) := by
  refine ⟨fun hx => by simp [vaporSeed, liquidSeed, hn, hr, oneRoot, hx, bind, Except.bind], fun x hx => ?_⟩
  have h0 : I.extrema ≠ [] := by intro h; rw [h] at hx; cases hx
  constructor
  · intro h
    simp [vaporSeed, liquidSeed, hn, hr, oneRoot, aboveExtremum, hx, h0, h, bind, Except.bind]
  · intro h h2
    have h3 : 1 < I.extrema.length := h2
    simp [vaporSeed, liquidSeed, hn, hr, oneRoot, aboveExtremum, hx, h0, not_lt.2 h, h3, bind, Except.bind]

/-- **C33** (two roots): the liquid search takes the first; the vapour search takes it for a liquid under tension,
and otherwise extrapolates to a vapour below the last root, or falls back to the ideal gas. -/
theorem c33_two_roots (I : Iso K) (hn : I.nanRoot = false) (r r' : K) (hr : I.roots = [r, r']) :
    liquidSeed I = .ok ((some (1 / r), 1), false) ∧
      (I.spline r + I.P < 0 → vaporSeed I = .ok ((some (1 / r), 1), false)) ∧
      (0 ≤ I.spline r + I.P →
        (∀ x, I.lsq (1 / I.vroot) I.feps (1 / (11 / 10 * r')) = .ok x → vaporSeed I = .ok ((some x, 0), false)) ∧
        ∀ e, I.lsq (1 / I.vroot) I.feps (1 / (11 / 10 * r')) = .error e → vaporSeed I = .ok ((none, 4), false)) := by
  refine ⟨by simp [liquidSeed, hn, hr], fun h => by simp [vaporSeed, hn, hr, h], fun h => ⟨fun x hx => ?_, fun e hx => ?_⟩⟩ <;>
  · simp only [vaporSeed, hn, hr, not_lt.2 h, if_false, lastRoot, List.getLast?_cons_cons, List.getLast?_singleton, hx,
      Bool.false_eq_true]

/-- **C33** (what is refined): a vapour or critical fluid of the vapour search, a liquid or critical fluid of the liquid
search; the density of anything else is the estimate. -/
theorem c33_refined_iff (I : Iso K) (ρ : K) (f : ℕ) (b : Bool) :
    (vaporSeed I = .ok ((some ρ, f), b) → vaporDensity I =
      if f = 0 ∨ f = 2 then (vaporRefine I b ρ).map fun x => (some x, f) else .ok (some ρ, f)) ∧
    (liquidSeed I = .ok ((some ρ, f), b) → liquidDensity I =
      if f = 1 ∨ f = 2 then (liquidRefine I b ρ).map fun x => (some x, f) else .ok (some ρ, f)) := by
  constructor
  · intro h
    simp only [vaporDensity, h, bind, Except.bind]
    split
    · cases vaporRefine I b ρ <;> rfl
    · rfl
  · intro h
    simp only [liquidDensity, h, bind, Except.bind]
    split
    · cases liquidRefine I b ρ <;> rfl
    · rfl

/-- **C33** (refinement): when the pressure changes sign within one percent of the estimate, the
returned density is within one percent, for a solver that stays in its bracket. -/
theorem c33_refined [IsStrictOrderedRing K] (I : Iso K) (noOpt : Bool) (ρ ρ' : K)
    (hb : ∀ lo hi r, I.brentq lo hi = .ok r → lo ≤ r ∧ r ≤ hi) :
    (I.err (ρ * (99 / 100)) * I.err (if I.rhoMax < ρ * (101 / 100) then I.rhoMax else ρ * (101 / 100)) < 0 →
      vaporRefine I noOpt ρ = .ok ρ' → ρ * (99 / 100) ≤ ρ' ∧ ρ' ≤ ρ * (101 / 100)) ∧
    (I.err (ρ * (99 / 100)) * I.err (ρ * (101 / 100)) < 0 →
      liquidRefine I noOpt ρ = .ok ρ' → ρ * (99 / 100) ≤ ρ' ∧ ρ' ≤ ρ * (101 / 100)) := by
  constructor
  · intro hs h
    unfold vaporRefine at h
    simp only [hs, if_true] at h
    obtain ⟨h1, h2⟩ := hb _ _ _ h
    refine ⟨h1, h2.trans ?_⟩
    split
    · rename_i h3; exact h3.le
    · exact le_refl _
  · intro hs h
    unfold liquidRefine at h
    simp only [hs, if_true] at h
    exact hb _ _ _ h

/-- **C33** is violated: without a root the vapour search never reports a vapour: the branch meant to
extrapolate to one indexes the empty list of roots and falls back to an ideal gas. -/
theorem c33_violated_no_vapor_without_root (I : Iso K) (hr : I.roots = []) (s : Res K)
    (h : vaporDensity I = .ok s) : s.2 ≠ 0 := by
  unfold vaporDensity at h
  cases e : vaporSeed I with
  | error _ => simp only [e, bind, Except.bind] at h; cases h
  | ok t =>
    obtain ⟨⟨ρ, f⟩, b⟩ := t
    have hf : f ≠ 0 := by
      unfold vaporSeed at e
      rw [hr] at e
      split at e
      · cases e; simp
      · simp only at e
        split at e
        · split at e
          · cases e; simp only [ne_eq]; split <;> simp
          · cases e; simp
        · split at e
          · rw [lastRoot, hr] at e; cases e; simp
          · cases e; simp
    simp only [e, bind, Except.bind] at h
    cases ρ with
    | none => simp only at h; cases h; exact hf
    | some ρ =>
      simp only at h
      split at h
      · cases e2 : vaporRefine I b ρ with
        | error _ => simp only [e2] at h; cases h
        | ok ρ' => simp only [e2] at h; cases h; exact hf
      · cases h; exact hf

/-- **C33** is violated: where the isotherm has no root because it lies above the set pressure
everywhere, the vapour search reports an ideal gas and the liquid search a liquid. -/
theorem c33_violated_liquid_without_root (I : Iso K) (hn : I.nanRoot = false) (hr : I.roots = [])
    (hx : I.extrema ≠ []) (h1 : 0 < I.spline I.endDensity) (h2 : 0 < I.minP) (x : K)
    (hl : I.lsq ((I.rhoFirst + I.rhoMax) / 2) I.rhoFirst I.rhoMax = .ok x) :
    vaporDensity I = .ok (none, 4) ∧ liquidSeed I = .ok ((some x, 1), true) := by
  have hlen : ¬ I.extrema.length = 0 := by simpa using hx
  constructor
  · simp [vaporDensity, vaporSeed, hn, hr, not_lt.2 h1.le, h2, lastRoot, bind, Except.bind]
  · simp [liquidSeed, hn, hr, h1.ne', hl, hx]

end

/-- An isotherm with one root at volume 2 and one extremum at volume 3, at the same pressure. -/
def flatIso : Iso ℚ where
  nanRoot := false
  roots := [2]
  extrema := [3]
  spline := fun _ => 0
  endDensity := 1
  minP := 1
  firstP := 1
  vroot := 1
  rhoFirst := 1
  rhoMax := 2
  err := fun ρ => ρ - 1
  P := 1
  feps := 0
  lsq := fun g _ _ => .ok g
  brentq := fun lo _ => .ok lo

/-- One root with extrema below and above it in pressure, and two roots that need an extrapolation. -/
example : vaporSeed { flatIso with extrema := [3, 5], spline := fun v => 2 - v } = .ok ((some (1 / 2), 1), false) ∧
    vaporSeed { flatIso with extrema := [3, 5], spline := fun v => v - 2 } = .ok ((some (1 / 2), 0), false) ∧
    vaporSeed { flatIso with roots := [2, 4], vroot := 10 } = .ok ((some (1 / 10), 0), false) ∧
    vaporSeed { flatIso with roots := [2, 4], lsq := fun _ _ _ => .error .valueError } = .ok ((none, 4), false) := by
  decide +kernel

/-- **C33** is violated: for the isotherm above both searches stop with an undefined variable. -/
theorem c33_violated_undefined :
    vaporDensity flatIso = .error .unboundLocal ∧ liquidDensity flatIso = .error .unboundLocal :=
  by constructor <;> decide +kernel

example : vaporDensity { flatIso with roots := [1, 2, 4], extrema := [1, 3] } = .ok (some (1 / 4), 0) := by
  decide +kernel
example : liquidDensity { flatIso with roots := [1, 2, 4], extrema := [1, 3] } = .ok (some (99 / 100), 1) := by
  decide +kernel
/-- The hypotheses of `c33_violated_liquid_without_root` are met. -/
example : liquidDensity { flatIso with roots := [], extrema := [1, 3], spline := fun _ => 1 } = .ok (some (3 / 2), 1)
    ∧ vaporDensity { flatIso with roots := [], extrema := [1, 3], spline := fun _ => 1 } = .ok (none, 4) := by
  decide +kernel

/-! ## C34: fugacity coefficients of an ideal or failed phase -/

section

variable {K : Type} [Field K] [LinearOrder K]

omit [LinearOrder K] in
/-- **C34** (ideal gas): flag 4 of the vapour search gives ones and density zero, for every number of
components. -/
theorem c34_ideal (n : ℕ) (fug : Option K → Except PyErr (List (Option K))) (ρ : Option K) :
    vaporFugacity n fug (ρ, 4) = .ok (List.replicate n (some 1), some 0, 4) := by
  simp [vaporFugacity]

omit [LinearOrder K] in
/-- **C34** (other phases): the equation of state is evaluated at the density that was found. -/
theorem c34_evaluated (n : ℕ) (fug : Option K → Except PyErr (List (Option K))) (ρ : K) (f : ℕ)
    (hf : f ≤ 2) (φ : List (Option K)) (h : fug (some ρ) = .ok φ) :
    vaporFugacity n fug (some ρ, f) = .ok (φ, some ρ, f) ∧ liquidFugacity fug (some ρ, f) = .ok (φ, some ρ, f) := by
  have h3 : f ≠ 3 := by omega
  have h4 : f ≠ 4 := by omega
  simp [vaporFugacity, liquidFugacity, h3, h4, h, bind, Except.bind]

omit [LinearOrder K] in
/-- **C34** (what holds of a failed phase): two NaN coefficients, which is right for two components. -/
theorem c34_failed_partial (fug : Option K → Except PyErr (List (Option K))) (ρ : Option K) :
    vaporFugacity 2 fug (ρ, 3) = .ok (List.replicate 2 none, ρ, 3) ∧
      liquidFugacity fug (ρ, 3) = .ok (List.replicate 2 none, ρ, 3) := by
  simp [vaporFugacity, liquidFugacity, List.replicate]

omit [LinearOrder K] in
/-- **C34** is violated: for any number of components other than two, a failed phase gives the wrong
number of coefficients. -/
theorem c34_violated_length (n : ℕ) (hn : n ≠ 2) (fug : Option K → Except PyErr (List (Option K))) (ρ : Option K) :
    ∃ φ, vaporFugacity n fug (ρ, 3) = .ok (φ, ρ, 3) ∧ liquidFugacity fug (ρ, 3) = .ok (φ, ρ, 3) ∧ φ.length ≠ n := by
  refine ⟨[none, none], by simp [vaporFugacity], by simp [liquidFugacity], ?_⟩
  simpa using hn.symm

omit [Field K] [LinearOrder K] in
/-- **C34** is violated: an ideal gas found by the liquid search is not treated as such; the equation
of state is asked for its coefficients at a NaN density, and one that screens its densities raises. -/
theorem c34_violated_liquid_ideal (fug : Option K → Except PyErr (List (Option K))) (e : PyErr)
    (h : fug none = .error e) : liquidFugacity fug (none, 4) = .error e := by
  simp [liquidFugacity, h, bind, Except.bind]

/-- The SAFT equation of state screens its densities (C29). -/
example : Verif.CheckDensity.checkDensity (.scalar (none : Option ℚ)) = .error .valueError := rfl

/-! ## C30: new compositions -/

/-- The arguments of an update: as many coefficients as components, all of them positive. -/
structure GoodUpdate (x : List K) (φl φv : List (Option K)) : Prop where
  lenl : φl.length = x.length
  lenv : φv.length = x.length
  posl : ∀ a ∈ φl, ∃ v, a = some v ∧ 0 < v
  posv : ∀ a ∈ φv, ∃ v, a = some v ∧ 0 < v
  sum : x.sum = 1

theorem newMoleFractions_ok {x : List K} {φl φv : List (Option K)} (hg : GoodUpdate x φl φv) {ph : Phase}
    (hp : ph ≠ .other) : newMoleFractions ph x φl φv =
      .ok ((x.zip (φl.zip φv)).map fun p => newFraction ph p.1 (p.2.1.getD 0) (p.2.2.getD 0)) := by
  have h1 : φv.any (·.isNone) = false := by
    rw [List.any_eq_false]; intro a ha; obtain ⟨v, rfl, _⟩ := hg.posv a ha; simp
  have h2 : φl.any (·.isNone) = false := by
    rw [List.any_eq_false]; intro a ha; obtain ⟨v, rfl, _⟩ := hg.posl a ha; simp
  unfold newMoleFractions
  rw [if_neg hp, if_neg (by simp [hg.sum]), h1, h2]
  rfl

omit [Field K] [LinearOrder K] in
theorem posCoef {m : List K} {φ : List (Option K)} [Zero K] [LT K] (hl : φ.length = m.length)
    (hp : ∀ a ∈ φ, ∃ v, a = some v ∧ 0 < v) {i : ℕ} (hi : i < m.length) :
    ∃ b, φ[i]? = some (some b) ∧ 0 < b := by
  have hi' : i < φ.length := hl ▸ hi
  obtain ⟨b, hb, hb0⟩ := hp φ[i] (List.getElem_mem hi')
  exact ⟨b, by rw [List.getElem?_eq_getElem hi', hb], hb0⟩

/-- **C30** (values): the new entry of component `i` is its old entry times the ratio of the
coefficients. -/
theorem c30_entry {x : List K} {φl φv : List (Option K)} (hg : GoodUpdate x φl φv) {ph : Phase}
    (hp : ph ≠ .other) {r : List K} (h : newMoleFractions ph x φl φv = .ok r) :
    r.length = x.length ∧ ∀ (i : ℕ) (a b c : K), x[i]? = some a → φl[i]? = some (some b) → φv[i]? = some (some c) →
      r[i]? = some (if ph = .vapor then a * b / c else a * c / b) := by
  rw [newMoleFractions_ok hg hp] at h
  obtain rfl := Except.ok.inj h
  constructor
  · simp [hg.lenl, hg.lenv]
  · intro i a b c ha hb hc
    have h1 : (φl.zip φv)[i]? = some (some b, some c) := List.getElem?_zip_eq_some.2 ⟨hb, hc⟩
    have h2 : (x.zip (φl.zip φv))[i]? = some (a, some b, some c) := List.getElem?_zip_eq_some.2 ⟨ha, h1⟩
    simp only [List.getElem?_map, h2, Option.map_some, Option.getD_some]
    unfold newFraction
    by_cases h0 : a = 0
    · subst h0
      cases ph <;> simp
    · cases ph <;> simp_all

set_option linter.unusedSimpArgs false in
/-- **C30** (rejection): an update is rejected exactly when the phase is unknown, the composition does
not add up to one or a coefficient is NaN, and always with a ValueError. -/
theorem c30_rejected_iff (ph : Phase) (x : List K) (φl φv : List (Option K)) (e : PyErr) :
    newMoleFractions ph x φl φv = .error e ↔
      e = .valueError ∧ (ph = .other ∨ x.sum ≠ 1 ∨ none ∈ φv ∨ none ∈ φl) := by
  have hv : (φv.any (·.isNone) = true) ↔ none ∈ φv := by
    rw [List.any_eq_true]
    exact ⟨fun ⟨a, ha, h⟩ => by rwa [Option.isNone_iff_eq_none.1 h] at ha, fun h => ⟨none, h, rfl⟩⟩
  have hl : (φl.any (·.isNone) = true) ↔ none ∈ φl := by
    rw [List.any_eq_true]
    exact ⟨fun ⟨a, ha, h⟩ => by rwa [Option.isNone_iff_eq_none.1 h] at ha, fun h => ⟨none, h, rfl⟩⟩
  unfold newMoleFractions
  rw [← hv, ← hl]
  split
  · simp only [Except.error.injEq, *, ne_eq, not_true_eq_false, not_false_eq_true, true_or, or_true, and_true]; exact eq_comm
  · split
    · simp only [Except.error.injEq, *, ne_eq, not_true_eq_false, not_false_eq_true, true_or, or_true, and_true]; exact eq_comm
    · split
      · simp only [Except.error.injEq, *, ne_eq, not_true_eq_false, not_false_eq_true, true_or, or_true, and_true]; exact eq_comm
      · split
        · simp only [Except.error.injEq, *, ne_eq, not_true_eq_false, not_false_eq_true, true_or, or_true, and_true]; exact eq_comm
        · simp [*]

variable [IsStrictOrderedRing K]

/-- **C30** (non-negative, and absent components stay absent). -/
theorem c30_nonneg {x : List K} {φl φv : List (Option K)} (hg : GoodUpdate x φl φv) {ph : Phase}
    (hp : ph ≠ .other) {r : List K} (h : newMoleFractions ph x φl φv = .ok r) (hx : ∀ a ∈ x, 0 ≤ a)
    (i : ℕ) (a s : K) (ha : x[i]? = some a) (hs : r[i]? = some s) : 0 ≤ s ∧ (s = 0 ↔ a = 0) := by
  obtain ⟨_, he⟩ := c30_entry hg hp h
  have hi : i < x.length := (List.getElem?_eq_some_iff.1 ha).1
  obtain ⟨b, h1, hb0⟩ := posCoef hg.lenl hg.posl hi
  obtain ⟨c, h2, hc0⟩ := posCoef hg.lenv hg.posv hi
  have h3 := he i a b c ha h1 h2
  rw [hs] at h3
  have h4 := Option.some.inj h3
  have ha0 : 0 ≤ a := hx a (List.mem_of_getElem? ha)
  subst h4
  cases ph with
  | vapor =>
    refine ⟨by positivity, ?_⟩
    simp [hb0.ne', hc0.ne']
  | liquid =>
    refine ⟨by positivity, ?_⟩
    simp [hb0.ne', hc0.ne']
  | other => exact absurd rfl hp

omit [IsStrictOrderedRing K] in
/-- **C30** (equal fugacities): with equal coefficients the composition is unchanged. -/
theorem c30_equal {x : List K} {φ : List (Option K)} (hg : GoodUpdate x φ φ) {ph : Phase}
    (hp : ph ≠ .other) : newMoleFractions ph x φ φ = .ok x := by
  rw [newMoleFractions_ok hg hp]
  congr 1
  refine List.ext_getElem? fun i => ?_
  by_cases hi : i < x.length
  · obtain ⟨b, h1, hb0⟩ := posCoef hg.lenl hg.posl hi
    have ha : x[i]? = some x[i] := List.getElem?_eq_getElem hi
    have := (c30_entry hg hp (newMoleFractions_ok hg hp)).2 i _ b b ha h1 h1
    rw [this, ha]
    cases ph with
    | vapor => simp [hb0.ne']
    | liquid => simp [hb0.ne']
    | other => exact absurd rfl hp
  · rw [List.getElem?_eq_none (by simp [hg.lenl]; omega), List.getElem?_eq_none (by omega)]

omit [IsStrictOrderedRing K] in
/-- **C30** (objective): the equilibrium objective is how far the new composition is from adding up
to one. -/
theorem c30_objective {x : List K} {φl φv : List (Option K)} (hg : GoodUpdate x φl φv) {ph : Phase}
    (hp : ph ≠ .other) {r : List K} (h : newMoleFractions ph x φl φv = .ok r) :
    equilibriumObjective ph x φl φv = .ok (r.sum - 1) := by
  rw [newMoleFractions_ok hg hp] at h
  obtain rfl := Except.ok.inj h
  have h1 : φv.any (·.isNone) = false := by
    rw [List.any_eq_false]; intro a ha; obtain ⟨v, rfl, _⟩ := hg.posv a ha; simp
  have h2 : φl.any (·.isNone) = false := by
    rw [List.any_eq_false]; intro a ha; obtain ⟨v, rfl, _⟩ := hg.posl a ha; simp
  unfold equilibriumObjective
  rw [if_neg hp, if_neg (by simp [hg.sum]), h1, h2]
  simp only [Bool.false_eq_true, if_false]
  congr 3
  refine List.map_congr_left fun p _ => ?_
  unfold newFraction
  by_cases h0 : p.1 = 0
  · cases ph <;> simp [h0]
  · simp only [ne_eq, h0, not_false_eq_true, if_true]

omit [IsStrictOrderedRing K] in
/-- **C30** (both directions agree): if the vapour composition computed from a liquid adds up to one,
computing the liquid from it gives the liquid back. -/
theorem c30_roundtrip {x : List K} {φl φv : List (Option K)} (hg : GoodUpdate x φl φv) {r : List K}
    (h : newMoleFractions .vapor x φl φv = .ok r) (hr : r.sum = 1) :
    newMoleFractions .liquid r φl φv = .ok x := by
  obtain ⟨hl, he⟩ := c30_entry hg (by simp) h
  have hg' : GoodUpdate r φl φv := ⟨hg.lenl.trans hl.symm, hg.lenv.trans hl.symm, hg.posl, hg.posv, hr⟩
  rw [newMoleFractions_ok hg' (by simp)]
  congr 1
  refine List.ext_getElem? fun i => ?_
  by_cases hi : i < x.length
  · obtain ⟨b, h1, hb0⟩ := posCoef hg.lenl hg.posl hi
    obtain ⟨c, h2, hc0⟩ := posCoef hg.lenv hg.posv hi
    have ha : x[i]? = some x[i] := List.getElem?_eq_getElem hi
    have h3 := he i _ b c ha h1 h2
    have h4 := (c30_entry hg' (ph := .liquid) (by simp) (newMoleFractions_ok hg' (by simp))).2 i _ b c h3 h1 h2
    rw [h4, ha]
    congr 1
    simp only [if_true, reduceCtorEq, if_false]
    field_simp [hb0.ne', hc0.ne']
  · rw [List.getElem?_eq_none (by simp [hg.lenl, hl]; omega), List.getElem?_eq_none (by omega)]

end

/-- The hypotheses are met by a mixture of three components, one of them absent; the new composition
need not add up to one. -/
example : GoodUpdate (K := ℚ) [1 / 2, 1 / 2, 0] [some 2, some (1 / 2), some 1] [some 1, some 1, some 1] ∧
    newMoleFractions (K := ℚ) .vapor [1 / 2, 1 / 2, 0] [some 2, some (1 / 2), some 1] [some 1, some 1, some 1]
      = .ok [1, 1 / 4, 0] := by
  refine ⟨⟨rfl, rfl, ?_, ?_, ?_⟩, ?_⟩
  · simp
  · simp
  · norm_num
  · decide +kernel

end Verif.Props
