import Verif.Model.GammaMie
import Mathlib.Analysis.Calculus.Deriv.Pow
import Mathlib.Analysis.Calculus.Deriv.Inv
import Mathlib.Analysis.Calculus.Deriv.Comp
import Mathlib.Tactic.Linarith
import Mathlib.Tactic.Ring
import Mathlib.Tactic.FieldSimp
import Mathlib.Tactic.Positivity

/-! # Derivatives of the building blocks of the Mie perturbation terms -/

namespace Verif.GammaMie
open Verif.Saft

/-- The denominator of the hard-sphere compressibility is positive. -/
theorem khs_den_pos (z : ℝ) : 0 < 1 + 4 * z + 4 * z ^ 2 - 4 * z ^ 3 + z ^ 4 := by
  have h : 1 + 4 * z + 4 * z ^ 2 - 4 * z ^ 3 + z ^ 4 = (1 + 2 * z - z ^ 2) ^ 2 + 2 * z ^ 2 := by ring
  rw [h]
  rcases eq_or_ne z 0 with rfl | hz
  · norm_num
  · positivity

/-- Scaling the argument of a function multiplied by the same variable: the product rule used in all
the terms below. -/
theorem hasDerivAt_mul_comp {F : ℝ → ℝ} {F' κ r : ℝ} (h : HasDerivAt F F' (r * κ)) :
    HasDerivAt (fun r => r * F (r * κ)) (F (r * κ) + r * κ * F') r := by
  have h1 : HasDerivAt (fun r : ℝ => r * κ) κ r := by simpa using (hasDerivAt_id r).mul_const κ
  have h2 : HasDerivAt (fun r => F (r * κ)) (F' * κ) r := h.comp r h1
  have h3 := (hasDerivAt_id r).mul h2
  refine h3.congr_deriv ?_
  simp
  ring

/-- Contact value `(1 - z/2)/(1 - z)^3`. -/
theorem hasDerivAt_contact {z : ℝ} (hz : z ≠ 1) :
    HasDerivAt (fun z : ℝ => (1 - z / 2) / (1 - z) ^ 3) ((5 - 2 * z) / (2 * (1 - z) ^ 4)) z := by
  have h0 : (1 - z) ≠ 0 := sub_ne_zero.mpr hz.symm
  have h1 : HasDerivAt (fun z : ℝ => 1 - z / 2) (-(1 / 2)) z :=
    ((hasDerivAt_id z).div_const 2).const_sub 1
  have h2 : HasDerivAt (fun z : ℝ => (1 - z) ^ 3) (3 * (1 - z) ^ 2 * (-1)) z := by
    have := ((hasDerivAt_id z).const_sub 1).pow 3
    exact this.congr_deriv (by simp)
  refine (h1.div h2 (pow_ne_zero 3 h0)).congr_deriv ?_
  field_simp
  ring

/-- Second term of the `B` function. -/
theorem hasDerivAt_bterm {z : ℝ} (hz : z ≠ 1) :
    HasDerivAt (fun z : ℝ => 9 * z * (1 + z) / (2 * (1 - z) ^ 3))
      (9 * (z ^ 2 + 4 * z + 1) / (2 * (1 - z) ^ 4)) z := by
  have h0 : (1 - z) ≠ 0 := sub_ne_zero.mpr hz.symm
  have h1 : HasDerivAt (fun z : ℝ => 9 * z * (1 + z)) (9 * (1 + z) + 9 * z) z := by
    have := ((hasDerivAt_id z).const_mul 9).mul ((hasDerivAt_id z).const_add 1)
    exact this.congr_deriv (by simp)
  have h2 : HasDerivAt (fun z : ℝ => 2 * (1 - z) ^ 3) (2 * (3 * (1 - z) ^ 2 * (-1))) z := by
    have := (((hasDerivAt_id z).const_sub 1).pow 3).const_mul 2
    exact this.congr_deriv (by simp)
  refine (h1.div h2 (mul_ne_zero two_ne_zero (pow_ne_zero 3 h0))).congr_deriv ?_
  field_simp
  ring

/-- Effective packing fraction: `z` times its derivative is `rhos_detaii_avg_drhos`. -/
theorem hasDerivAt_etaEff (l z : ℝ) :
    HasDerivAt (etaEff l) (ceff l 0 + 2 * z * ceff l 1 + 3 * z ^ 2 * ceff l 2 + 4 * z ^ 3 * ceff l 3) z := by
  unfold etaEff
  have h1 := (hasDerivAt_id z).mul_const (ceff l 0)
  have h2 := ((hasDerivAt_id z).pow 2).mul_const (ceff l 1)
  have h3 := ((hasDerivAt_id z).pow 3).mul_const (ceff l 2)
  have h4 := ((hasDerivAt_id z).pow 4).mul_const (ceff l 3)
  refine (((h1.add h2).add h3).add h4).congr_deriv ?_
  simp

theorem hasDerivAt_khs (z : ℝ) :
    HasDerivAt khs (4 * (z ^ 2 - 5 * z - 2) * (1 - z) ^ 3
      / (z ^ 4 - 4 * z ^ 3 + 4 * z ^ 2 + 4 * z + 1) ^ 2) z := by
  have hd := (khs_den_pos z).ne'
  have h1 : HasDerivAt (fun z : ℝ => (1 - z) ^ 4) (4 * (1 - z) ^ 3 * (-1)) z := by
    have := ((hasDerivAt_id z).const_sub 1).pow 4
    exact this.congr_deriv (by simp)
  have h2 : HasDerivAt (fun z : ℝ => 1 + 4 * z + 4 * z ^ 2 - 4 * z ^ 3 + z ^ 4)
      (4 + 4 * (2 * z) - 4 * (3 * z ^ 2) + 4 * z ^ 3) z := by
    have a := ((hasDerivAt_id z).const_mul 4).const_add 1
    have b := ((hasDerivAt_id z).pow 2).const_mul 4
    have c := ((hasDerivAt_id z).pow 3).const_mul 4
    have d := (hasDerivAt_id z).pow 4
    refine (((a.add b).sub c).add d).congr_deriv ?_
    simp
  have h := h1.div h2 hd
  unfold khs
  refine h.congr_deriv ?_
  have e : z ^ 4 - 4 * z ^ 3 + 4 * z ^ 2 + 4 * z + 1 = 1 + 4 * z + 4 * z ^ 2 - 4 * z ^ 3 + z ^ 4 := by
    ring
  rw [e]
  congr 1
  ring

variable {m : ℕ}

/-- The packing fraction as a function of the segment density `ρ * Cmol2seg`. -/
theorem zetax_segment (M C r : ℝ) (w D : Fin m → Fin m → ℝ) (hC : C ≠ 0) :
    zetax M (r / C) C w D = r * (Real.pi / 6 * ∑ k, ∑ l, w k l * (D k l ^ 3 * M)) := by
  unfold zetax
  rw [div_mul_cancel₀ _ hC]

end Verif.GammaMie
