import Mathlib.Algebra.Order.Ring.Rat
import Mathlib.Order.Defs.LinearOrder
import Verif.Model.CheckDensity

/-!
# C29: invalid densities are rejected
-/

namespace Verif.Props

open Verif.CheckDensity

section

variable {K : Type} [Zero K] [LinearOrder K]

/-- A valid array of densities: not empty, no NaN, nothing negative. -/
def ValidDensities (l : List (Option K)) : Prop :=
  l ≠ [] ∧ ∀ x ∈ l, ∃ v, x = some v ∧ 0 ≤ v

theorem screen_ok (l : List (Option K)) (h : ValidDensities l) : screen l = .ok l := by
  obtain ⟨h0, h⟩ := h
  have h1 : l.any (·.isNone) = false := by
    rw [List.any_eq_false]
    intro x hx
    obtain ⟨v, rfl, _⟩ := h x hx
    simp
  have h3 : ¬ l.length = 0 := by simpa using h0
  unfold screen
  rw [h1, if_neg (by simp), if_neg h3, if_neg]
  rw [List.any_eq_true]
  rintro ⟨x, hx, hn⟩
  obtain ⟨v, rfl, hv⟩ := h x hx
  exact absurd (of_decide_eq_true hn) (not_lt.2 hv)

theorem screen_error (l : List (Option K)) (h : ¬ ValidDensities l) : screen l = .error .valueError := by
  unfold screen
  split
  · rfl
  · rename_i h1
    split
    · rfl
    · rename_i h2
      split
      · rfl
      · rename_i h3
        refine absurd ⟨fun e => h2 (by rw [e]; rfl), fun x hx => ?_⟩ h
        rw [Bool.not_eq_true, List.any_eq_false] at h1 h3
        cases x with
        | none => exact absurd rfl (h1 none hx)
        | some v => exact ⟨v, rfl, by simpa using h3 _ hx⟩

/-- **C29** (lists and one-dimensional arrays): a valid array is passed on unchanged. -/
theorem c29_vec_unchanged (l : List (Option K)) (h : ValidDensities l) :
    checkDensity (.vec l) = .ok l := screen_ok l h

/-- **C29** (lists and one-dimensional arrays): anything else raises ValueError. -/
theorem c29_vec_rejected (l : List (Option K)) (h : ¬ ValidDensities l) :
    checkDensity (.vec l) = .error .valueError := screen_error l h

/-- **C29** (scalars): a non-negative number becomes an array of one. -/
theorem c29_scalar_unchanged (v : K) (h : 0 ≤ v) : checkDensity (.scalar (some v)) = .ok [some v] :=
  screen_ok _ ⟨by simp, by simpa using h⟩

/-- **C29** (scalars): NaN and negative numbers raise ValueError. -/
theorem c29_scalar_rejected (x : Option K) (h : ∀ v, x = some v → v < 0) :
    checkDensity (.scalar x) = .error .valueError := by
  refine screen_error _ fun hv => ?_
  obtain ⟨v, rfl, h1⟩ := hv.2 x (by simp)
  exact absurd (h v rfl) (not_lt.2 h1)

/-- **C29**: whatever was handed over, what reaches the equation of state is valid. -/
theorem c29_accepted_valid (a : DensArg K) (l : List (Option K)) (h : checkDensity a = .ok l) :
    ValidDensities l := by
  have key : ∀ m, screen m = .ok l → ValidDensities l := by
    intro m hm
    by_contra hv
    by_cases h' : ValidDensities m
    · rw [screen_ok m h'] at hm
      exact hv (Except.ok.inj hm ▸ h')
    · rw [screen_error m h'] at hm
      cases hm
  match a, h with
  | .scalar x, h => exact key _ h
  | .vec m, h => exact key _ h
  | .mat (r :: _), h => exact key _ h

/-- **C29** (what holds for two-dimensional arrays): one valid row is passed on. -/
theorem c29_one_row_partial (r : List (Option K)) (h : ValidDensities r) :
    checkDensity (.mat [r]) = .ok r := screen_ok r h

/-- **C29** is violated for two-dimensional arrays: all rows but the first are dropped unseen,
whatever they contain. -/
theorem c29_violated_rows (r : List (Option K)) (rs : List (List (Option K))) (h : ValidDensities r) :
    checkDensity (.mat (r :: rs)) = .ok r := screen_ok r h

end

/-- **C29** is violated: a two-dimensional array with a NaN and a negative density is accepted. -/
theorem c29_violated_nan_accepted :
    checkDensity (.mat [[some 1], [none], [some (-1)]] : DensArg ℚ) = .ok [some 1] :=
  c29_violated_rows _ _ ⟨by simp, by simp⟩

/-- **C29** is violated: an empty two-dimensional array and an array without dimensions raise other
exceptions than ValueError. -/
theorem c29_violated_exceptions :
    checkDensity (.mat [] : DensArg ℚ) = .error .indexError ∧
      checkDensity (.zeroDim : DensArg ℚ) = .error .typeError := ⟨rfl, rfl⟩

example : ValidDensities [some (1 : ℚ), some 0] := ⟨by simp, by simp⟩
example : ¬ ValidDensities [some (1 : ℚ), none] := fun h => by simpa using h.2 none (by simp)

end Verif.Props
