import Verif.Proofs.GammaMie

/-!
# C19: the coded density derivatives are derivatives of the coded functions

The derivatives are taken with respect to the segment density `r = ρ * Cmol2seg` at fixed
composition and temperature, with the packing fraction computed by `calc_zetax` from the same
density.  The `1 - η` of the effective packing fraction and the `1 - ζ` of the packing fraction occur
as denominators, so they must not vanish.
-/

namespace Verif.Props
open Verif.Saft Verif.GammaMie

variable {m : ℕ}

/-- **C19** (hard-sphere compressibility): `dKHS_drhos` is the derivative of `calc_KHS` at every
non-zero density. -/
theorem c19_dKHS (M C r : ℝ) (w D : Fin m → Fin m → ℝ) (hC : C ≠ 0) (hr : r ≠ 0) :
    HasDerivAt (fun r => khs (zetax M (r / C) C w D))
      (dKHS ((r / C) * C) (zetax M (r / C) C w D)) r := by
  rw [div_mul_cancel₀ _ hC]
  have e : (fun r => khs (zetax M (r / C) C w D))
      = fun r => khs (r * (Real.pi / 6 * ∑ k, ∑ l, w k l * (D k l ^ 3 * M))) :=
    funext fun r => by rw [zetax_segment M C r w D hC]
  rw [e, zetax_segment M C r w D hC]
  generalize Real.pi / 6 * ∑ k, ∑ l, w k l * (D k l ^ 3 * M) = κ
  have h1 : HasDerivAt (fun r : ℝ => r * κ) κ r := by simpa using (hasDerivAt_id r).mul_const κ
  refine ((hasDerivAt_khs (r * κ)).comp r h1).congr_deriv ?_
  unfold dKHS
  rw [mul_div_assoc r κ r, mul_div_cancel₀ _ hr]

/-- **C19** (first-order term): `calc_da1sii_drhos` is the derivative of `calc_a1s_eff`. -/
theorem c19_da1s (M C l ε d r : ℝ) (w D : Fin m → Fin m → ℝ) (hC : C ≠ 0)
    (hη : etaEff l (zetax M (r / C) C w D) ≠ 1) :
    HasDerivAt (fun r => a1sEff M (r / C) C l (zetax M (r / C) C w D) ε d)
      (da1s M l (zetax M (r / C) C w D) ε d) r := by
  have e : (fun r => a1sEff M (r / C) C l (zetax M (r / C) C w D) ε d)
      = fun r => (-2 * Real.pi * (ε * (d ^ 3 * M ^ 2) / (l - 3))) *
        (r * (fun z => (1 - etaEff l z / 2) / (1 - etaEff l z) ^ 3)
          (r * (Real.pi / 6 * ∑ k, ∑ l, w k l * (D k l ^ 3 * M)))) := by
    funext r
    rw [zetax_segment M C r w D hC]
    simp only [a1sEff]
    generalize ε * (d ^ 3 * M ^ 2) / (l - 3) = q
    generalize etaEff l _ = η
    rw [neg_div]
    generalize (1 - η / 2) / (1 - η) ^ 3 = f
    field_simp
  rw [e]
  rw [zetax_segment M C r w D hC] at hη ⊢
  generalize Real.pi / 6 * ∑ k, ∑ l, w k l * (D k l ^ 3 * M) = κ at hη
  have h1 := (hasDerivAt_contact hη).comp (r * κ) (hasDerivAt_etaEff l (r * κ))
  refine ((hasDerivAt_mul_comp h1).const_mul _).congr_deriv ?_
  simp only [da1s, rhosDeta, Function.comp]
  ring

/-- **C19** (`B` function): `calc_dBkl_drhos` is the derivative of `calc_Bkl_eff`. -/
theorem c19_dB (M C l ε d x0 r : ℝ) (w D : Fin m → Fin m → ℝ) (hC : C ≠ 0)
    (hz : zetax M (r / C) C w D ≠ 1) :
    HasDerivAt (fun r => bEff M (r / C) l C d ε x0 (zetax M (r / C) C w D))
      (dB M l d ε x0 (zetax M (r / C) C w D)) r := by
  have e : (fun r => bEff M (r / C) l C d ε x0 (zetax M (r / C) C w D))
      = fun r => (2 * Real.pi * ((d ^ 3 * M ^ 2) * ε)) *
        (r * (fun z => (1 - z / 2) / (1 - z) ^ 3 * iFun l x0
          - 9 * z * (1 + z) / (2 * (1 - z) ^ 3) * jFun l x0)
          (r * (Real.pi / 6 * ∑ k, ∑ l, w k l * (D k l ^ 3 * M)))) := by
    funext r
    rw [zetax_segment M C r w D hC]
    simp only [bEff]
    rw [mul_div_cancel₀ _ hC]
    ring
  rw [e]
  rw [zetax_segment M C r w D hC] at hz ⊢
  generalize Real.pi / 6 * ∑ k, ∑ l, w k l * (D k l ^ 3 * M) = κ at hz
  have h1 := ((hasDerivAt_contact hz).mul_const (iFun l x0)).sub
    ((hasDerivAt_bterm hz).mul_const (jFun l x0))
  refine ((hasDerivAt_mul_comp h1).const_mul _).congr_deriv ?_
  simp only [dB, Pi.sub_apply]
  ring

/-- **C19** (perturbation term of first order): `calc_da1iidrhos` is the derivative of the function in
`calc_a1ii`, up to the constant factor `molecule_per_nm3` that only the latter divides by. -/
theorem c19_da1ii (M C la lr ε d x0 r : ℝ) (w D : Fin m → Fin m → ℝ) (hC : C ≠ 0)
    (hz : zetax M (r / C) C w D ≠ 1) (hηa : etaEff la (zetax M (r / C) C w D) ≠ 1)
    (hηr : etaEff lr (zetax M (r / C) C w D) ≠ 1) :
    HasDerivAt (fun r => a1ii M (r / C) C d la lr x0 ε (zetax M (r / C) C w D))
      (da1ii M d la lr x0 ε (zetax M (r / C) C w D) / M) r := by
  have ha := (c19_da1s M C la ε d r w D hC hηa).add (c19_dB M C la ε d x0 r w D hC hz)
  have hr := (c19_da1s M C lr ε d r w D hC hηr).add (c19_dB M C lr ε d x0 r w D hC hz)
  refine (((ha.const_mul (x0 ^ la / M)).sub (hr.const_mul (x0 ^ lr / M))).const_mul
    (prefactor lr la)).congr_deriv ?_
  unfold da1ii
  ring

/-- **C19** (perturbation term of second order): `calc_da2ii_1pchi_drhos` is the derivative of the
second-order term of `Asecond_order` without its `1 + χ`, up to the same constant factor. -/
theorem c19_da2 (M C la lr ε d x0 r : ℝ) (w D : Fin m → Fin m → ℝ) (hC : C ≠ 0) (hr : r ≠ 0)
    (hz : zetax M (r / C) C w D ≠ 1) (hηa : etaEff (2 * la) (zetax M (r / C) C w D) ≠ 1)
    (hηar : etaEff (la + lr) (zetax M (r / C) C w D) ≠ 1)
    (hηr : etaEff (2 * lr) (zetax M (r / C) C w D) ≠ 1) :
    HasDerivAt (fun r => a2NoChi M (r / C) C d la lr x0 ε (zetax M (r / C) C w D))
      (da2 M (r / C) C ε d x0 lr la (zetax M (r / C) C w D) / M) r := by
  have ha := (c19_da1s M C (2 * la) ε d r w D hC hηa).add (c19_dB M C (2 * la) ε d x0 r w D hC hz)
  have har := (c19_da1s M C (la + lr) ε d r w D hC hηar).add
    (c19_dB M C (la + lr) ε d x0 r w D hC hz)
  have hrr := (c19_da1s M C (2 * lr) ε d r w D hC hηr).add (c19_dB M C (2 * lr) ε d x0 r w D hC hz)
  have hk := (c19_dKHS M C r w D hC hr).div_const 2
  have hin := ((((ha.const_mul (x0 ^ (2 * la))).div_const M).sub
    ((har.const_mul (2 * x0 ^ (la + lr))).div_const M)).add
    ((hrr.const_mul (x0 ^ (2 * lr))).div_const M)).mul_const (ε * prefactor lr la ^ 2)
  refine (hk.mul hin).congr_deriv ?_
  simp only [da2, Pi.add_apply, Pi.sub_apply]
  rw [show (0.5 : ℝ) = 1 / 2 by norm_num]
  ring

/-- Non-vacuity: a pure fluid of one spherical group with diameter one at packing fraction `1/10`; the
effective packing fraction for the exponents 6 and 12 is not one. -/
example : zetax 1 ((3 / (5 * Real.pi)) / 1) 1 (fun _ _ : Fin 1 => 1) (fun _ _ => 1) = 1 / 10 := by
  have := Real.pi_ne_zero
  simp [zetax]
  field_simp
  norm_num

example : etaEff 6 (1 / 10) ≠ 1 ∧ etaEff 12 (1 / 10) ≠ 1 ∧ etaEff 18 (1 / 10) ≠ 1 ∧
    etaEff 24 (1 / 10) ≠ 1 := by
  refine ⟨?_, ?_, ?_, ?_⟩ <;> (simp only [etaEff, ceff, cklCoef, Matrix.cons_val]; norm_num)

end Verif.Props
