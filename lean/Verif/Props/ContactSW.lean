import Verif.Props.GammaSW
import Mathlib.Analysis.SpecialFunctions.Integrals.Basic
import Mathlib.Tactic.FieldSimp

/-!
# C109: the contact values of the square-well fluid
-/

namespace Verif.Props
open Verif Verif.Saft Verif.GammaMie Verif.GammaSW

/-- C109: `alphakl` is one half of the depth of the well times the volume of its shell, the integral
of the attraction over the distances between the diameter and the range. -/
theorem c109_alpha (ε σ lam : ℝ) :
    alpha ε σ lam = 1 / 2 * ∫ r in σ..(lam * σ), ε * (4 * Real.pi * r ^ 2) := by
  have : (fun r : ℝ => ε * (4 * Real.pi * r ^ 2)) = fun r => (ε * (4 * Real.pi)) * r ^ 2 := by
    funext r; ring
  rw [this, intervalIntegral.integral_const_mul, integral_pow]
  unfold alpha
  push_cast
  ring

/-- C109: a well of no width does not attract. -/
theorem c109_alpha_zero (ε σ : ℝ) : alpha ε σ 1 = 0 := by unfold alpha; ring

/-- C109: the contact value does not depend on the order of the two components. -/
theorem c109_ghs_symmetric (z2 z3 s t : ℝ) : gHS z2 z3 s t = gHS z2 z3 t s := by
  unfold gHS
  simp only [mul_comm s t, add_comm s t]

/-- C109: for one component the contact value is that of Carnahan and Starling (the second moment is
then the packing fraction over the diameter). -/
theorem c109_ghs_pure (η d : ℝ) (hd : d ≠ 0) (hη : η ≠ 1) :
    gHS (η / d) η d d = (1 - η / 2) / (1 - η) ^ 3 := by
  have h1 : 1 - η ≠ 0 := sub_ne_zero.2 hη.symm
  unfold gHS
  have : d * d / (d + d) = d / 2 := by field_simp; ring
  simp only [this]
  field_simp
  ring

/-- C109: at zero density the contact value is one. -/
theorem c109_ghs_dilute (s t : ℝ) : gHS 0 0 s t = 1 := by unfold gHS; norm_num

/-- The first-order energy of a pair, in units of the depth of the well: `-4 η (λ³ - 1) g`. -/
noncomputable def pairEnergySW (lam η : ℝ) : ℝ := -4 * η * (lam ^ 3 - 1) * g0HS lam η

/-- C109: the contact value of the square-well fluid is that of the hard spheres plus the first-order
term `(ε/T)/4 (∂a/∂η - λ/(3η) ∂a/∂λ)` of the first-order energy `a`. -/
theorem c109_gsw (T ε lam s t z2 η : ℝ) (hl : lam ≠ 0) (hη : η ≠ 0) (h1 : zetaEff lam η ≠ 1)
    {Dη Dl : ℝ} (dη : HasDerivAt (pairEnergySW lam) Dη η)
    (dl : HasDerivAt (fun l => pairEnergySW l η) Dl lam) :
    gSW T ε lam s t z2 η = gHS z2 η s t + ε / T * (1 / 4 * (Dη - lam / (3 * η) * Dl)) := by
  have g1 := c59_dg0HS lam η h1
  have g2 : HasDerivAt (fun l => g0HS l η) (dzetaDlam lam η * dg0HS lam η) lam := by
    refine ((hasDerivAt_contact h1).comp lam (c59_dzetaDlam lam η hl)).congr_deriv ?_
    unfold dg0HS
    rw [show (2.5 : ℝ) = 5 / 2 by norm_num]
    have h0 : (1 - zetaEff lam η) ≠ 0 := sub_ne_zero.mpr (Ne.symm h1)
    field_simp
  have e1 := dη.unique
    ((((hasDerivAt_id η).const_mul (-4)).mul_const (lam ^ 3 - 1)).fun_mul g1)
  have e2 := dl.unique
    (((((hasDerivAt_id lam).pow 3).sub_const 1).const_mul (-4 * η)).fun_mul g2)
  rw [e1, e2]
  simp only [gSW, id, Pi.pow_apply]
  push_cast
  generalize g0HS lam η = g
  generalize dg0HS lam η = d
  generalize dzetaEff lam η = a
  generalize dzetaDlam lam η = b
  congr 1
  congr 1
  field_simp
  ring

/-- The hypotheses of `c109_gsw` are met, for a well of range 3/2 at a packing fraction of one
tenth. -/
example : zetaEff (3 / 2) (1 / 10) ≠ 1 ∧ ∃ Dη Dl, HasDerivAt (pairEnergySW (3 / 2)) Dη (1 / 10) ∧
    HasDerivAt (fun l => pairEnergySW l (1 / 10)) Dl (3 / 2) := by
  have h1 : zetaEff (3 / 2) (1 / 10) ≠ 1 := by
    simp only [zetaEff, cikl, GammaSW.cklCoef, ne_eq, Matrix.cons_val]
    norm_num
  have d1 := (((hasDerivAt_id (1 / 10 : ℝ)).const_mul (-4)).mul_const ((3 / 2 : ℝ) ^ 3 - 1)).fun_mul
    (c59_dg0HS _ _ h1)
  have d2 := ((((hasDerivAt_id (3 / 2 : ℝ)).pow 3).sub_const 1).const_mul (-4 * (1 / 10))).fun_mul
    (HasDerivAt.comp (3 / 2 : ℝ) (hasDerivAt_contact h1)
      (c59_dzetaDlam (3 / 2) (1 / 10) (by norm_num)))
  exact ⟨h1, _, _, d1, d2⟩

end Verif.Props
