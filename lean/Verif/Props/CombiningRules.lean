import Verif.Model.CombiningRules
import Mathlib.Tactic.FieldSimp
import Mathlib.Tactic.Ring
import Mathlib.Tactic.Linarith
import Mathlib.Tactic.Positivity
import Mathlib.Tactic.NormNum

/-! # C09: combining rules; C53: multipole rule and temperature -/

namespace Verif.Props
open Verif Verif.CombiningRules

/-- **C09 (a).** Every combining rule is symmetric in the two groups. -/
theorem c09_symmetric (A B : Bead) (p q r : String) :
    mean A B p = mean B A p ∧ geometricMean A B p = geometricMean B A p ∧
    volumetricGeometricMean A B p q = volumetricGeometricMean B A p q ∧
    weightedMean A B p q = weightedMean B A p q ∧ mieExponent A B p = mieExponent B A p ∧
    squareWellBerthelot A B p q r = squareWellBerthelot B A p q r := by
  have hw : ∀ p q, weightedMean A B p q = weightedMean B A p q := by
    intro p q
    simp only [weightedMean]
    rw [add_comm (A p * A q), add_comm (A q)]
  refine ⟨?_, ?_, ?_, hw p q, ?_, ?_⟩
  · simp only [mean, add_comm]
  · simp only [geometricMean, mul_comm]
  · simp only [volumetricGeometricMean, mul_comm (A p), mul_comm (A q ^ 3), add_comm (A q)]
  · simp only [mieExponent, mul_comm]
  · simp only [squareWellBerthelot, mul_comm (A p), mul_comm (A q ^ 3), add_comm (A q),
      mul_comm (A r ^ 3 - 1), hw r q]

theorem c09_sqrt_mul_self_pow (x : ℝ) (hx : 0 ≤ x) : Real.sqrt (x ^ 3 * x ^ 3) = x ^ 3 :=
  Real.sqrt_mul_self (by positivity)

/-- **C09 (b).** Every rule returns the group's own value when both groups have the same parameters,
under the sign conditions that physical parameters satisfy; for the Mie exponent this needs an
exponent of at least three (see `c09_violated_small_exponent`). -/
theorem c09_idempotent (A : Bead) (p q r : String) :
    mean A A p = A p ∧
    (0 ≤ A p → geometricMean A A p = A p) ∧
    (0 ≤ A p → 0 < A q → volumetricGeometricMean A A p q = A p) ∧
    (A q ≠ 0 → weightedMean A A p q = A p) ∧
    (3 ≤ A p → mieExponent A A p = A p) ∧
    (0 ≤ A p → 0 < A q → 1 < A r → squareWellBerthelot A A p q r = A p) := by
  have hw : ∀ p q, A q ≠ 0 → weightedMean A A p q = A p := by
    intro p q h
    simp only [weightedMean]
    have : A q + A q ≠ 0 := by
      intro h'; apply h; linarith
    field_simp
  have hv : 0 < A q → Real.sqrt (A q ^ 3 * A q ^ 3) * 8 / (A q + A q) ^ 3 = 1 := by
    intro hq
    rw [c09_sqrt_mul_self_pow _ hq.le]
    field_simp
    ring
  refine ⟨?_, ?_, ?_, hw p q, ?_, ?_⟩
  · simp only [mean]; ring
  · intro h; exact Real.sqrt_mul_self h
  · intro h hq
    simp only [volumetricGeometricMean]
    rw [Real.sqrt_mul_self h, hv hq, mul_one]
  · intro h
    simp only [mieExponent]
    rw [Real.sqrt_mul_self (by linarith)]; ring
  · intro h hq hr
    simp only [squareWellBerthelot]
    have h1 : 1 < A r ^ 3 := one_lt_pow₀ hr (by norm_num)
    rw [Real.sqrt_mul_self h, hv hq, hw r q hq.ne', Real.sqrt_mul_self (by linarith),
      div_self (by linarith)]
    ring

/-- **C09 (c).** Mean, weighted mean (positive weights) and geometric mean (non-negative values) lie
between the two values. -/
theorem c09_between (A B : Bead) (p q : String) :
    (min (A p) (B p) ≤ mean A B p ∧ mean A B p ≤ max (A p) (B p)) ∧
    (0 < A q → 0 < B q → min (A p) (B p) ≤ weightedMean A B p q ∧
      weightedMean A B p q ≤ max (A p) (B p)) ∧
    (0 ≤ A p → 0 ≤ B p → min (A p) (B p) ≤ geometricMean A B p ∧
      geometricMean A B p ≤ max (A p) (B p)) := by
  have h1 : min (A p) (B p) ≤ A p := min_le_left _ _
  have h2 : min (A p) (B p) ≤ B p := min_le_right _ _
  have h3 : A p ≤ max (A p) (B p) := le_max_left _ _
  have h4 : B p ≤ max (A p) (B p) := le_max_right _ _
  refine ⟨⟨?_, ?_⟩, ?_, ?_⟩
  · simp only [mean]; linarith
  · simp only [mean]; linarith
  · intro ha hb
    simp only [weightedMean]
    constructor
    · rw [le_div_iff₀ (by linarith)]
      nlinarith [mul_le_mul_of_nonneg_right h1 ha.le, mul_le_mul_of_nonneg_right h2 hb.le]
    · rw [div_le_iff₀ (by linarith)]
      nlinarith [mul_le_mul_of_nonneg_right h3 ha.le, mul_le_mul_of_nonneg_right h4 hb.le]
  · intro ha hb
    simp only [geometricMean]
    have hm : 0 ≤ min (A p) (B p) := le_min ha hb
    constructor
    · apply Real.le_sqrt_of_sq_le
      nlinarith
    · rw [Real.sqrt_le_left (by linarith)]
      nlinarith

/-- The volume factor of the Lafitte-type rules is at most one: the cross energy never exceeds the
geometric mean. -/
theorem c09_volumetric_le_geometric (A B : Bead) (p q : String) (ha : 0 < A q) (hb : 0 < B q) :
    volumetricGeometricMean A B p q ≤ geometricMean A B p := by
  simp only [volumetricGeometricMean, geometricMean]
  have hs : 0 ≤ Real.sqrt (A p * B p) := Real.sqrt_nonneg _
  have h1 : Real.sqrt (A q ^ 3 * B q ^ 3) * 8 / (A q + B q) ^ 3 ≤ 1 := by
    rw [div_le_one (by positivity)]
    have h2 : A q ^ 3 * B q ^ 3 ≤ ((A q + B q) ^ 3 / 8) ^ 2 := by
      have h3 : A q * B q ≤ ((A q + B q) / 2) ^ 2 := by nlinarith [sq_nonneg (A q - B q)]
      calc A q ^ 3 * B q ^ 3 = (A q * B q) ^ 3 := by ring
        _ ≤ (((A q + B q) / 2) ^ 2) ^ 3 := pow_le_pow_left₀ (by positivity) h3 3
        _ = ((A q + B q) ^ 3 / 8) ^ 2 := by ring
    have h4 : Real.sqrt (A q ^ 3 * B q ^ 3) ≤ (A q + B q) ^ 3 / 8 := by
      rw [Real.sqrt_le_left (by positivity)]; exact h2
    linarith
  calc _ ≤ Real.sqrt (A p * B p) * 1 := mul_le_mul_of_nonneg_left h1 hs
    _ = _ := mul_one _

/-- **C09, violated.** For an exponent below three the Mie rule does not reproduce the group's own
value: `2` becomes `4`. -/
theorem c09_violated_small_exponent :
    ∃ A : Bead, A "lambdar" = 2 ∧ mieExponent A A "lambdar" = 4 := by
  refine ⟨fun _ => 2, rfl, ?_⟩
  simp only [mieExponent]
  rw [show ((2 : ℝ) - 3) * (2 - 3) = 1 by norm_num, Real.sqrt_one]
  norm_num

example : weightedMean (fun s => if s = "l" then 1 else 3) (fun s => if s = "l" then 5 else 1) "l" "s"
    = 2 := by simp [weightedMean]; norm_num

/-- **C53, violated.** When a temperature is given, the multipole rule ignores it and falls back to
the geometric mean, for every mode; when no temperature is given the fit runs with none. -/
theorem c53_violated (mode : String) :
    multipole .num mode = .ok .geometric ∧
    multipole .none "curve fit" = .ok (.fit .none) := by
  constructor <;> simp [multipole]

/-- **C53, partial.** An unknown mode is rejected when no temperature is given. -/
theorem c53_unknown_mode_partial (mode : String) (h1 : mode ≠ "curve fit") (h2 : mode ≠ "analytical") :
    multipole .none mode = .error .valueError := by
  simp [multipole, h1, h2]

end Verif.Props
