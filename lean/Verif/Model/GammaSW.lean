import Verif.Model.SaftToolbox
import Verif.Basic.Py

/-!
# `despasito/equations_of_state/saft/gamma_sw.py`

One density at a time; matrices over groups are functions on `Fin m`.  `M` is
`constants.molecule_per_nm3`.
-/

namespace Verif.GammaSW
open Verif Verif.Saft

/-- gamma_sw.py:19-25: the table `ckl_coef`. -/
noncomputable def cklCoef : Fin 3 → Fin 3 → ℝ :=
  ![![2.25855, -1.50349, 0.249434],
    ![-0.669270, 1.40049, -0.827739],
    ![10.1576, -15.0427, 5.30827]]

/-- gamma_sw.py:712: the table `dckl_coef`. -/
noncomputable def dcklCoef : Fin 3 → Fin 2 → ℝ :=
  ![![-1.50349, 0.249434], ![1.40049, -0.827739], ![-15.0427, 5.30827]]

/-- gamma_sw.py:368-374 and 423-429: `cikl`. -/
noncomputable def cikl (lam : ℝ) (q : Fin 3) : ℝ :=
  cklCoef q 0 * 1 + cklCoef q 1 * lam + cklCoef q 2 * lam ^ 2

open Classical in
/-- gamma_sw.py:324-377 `effective_packing_fraction`, one entry. -/
noncomputable def zetaEff (lam z : ℝ) : ℝ :=
  if lam ≠ 0 then z * cikl lam 0 + z ^ 2 * cikl lam 1 + z ^ 3 * cikl lam 2 else 0

open Classical in
/-- gamma_sw.py:379-432 `_dzetaeff_dzetax`, one entry. -/
noncomputable def dzetaEff (lam z : ℝ) : ℝ :=
  if lam ≠ 0 then 1 * cikl lam 0 + 2 * z * cikl lam 1 + 3 * z ^ 2 * cikl lam 2 else 0

/-- gamma_sw.py:713-718: `dzetaijdlambda`, one entry. -/
noncomputable def dzetaDlam (lam z : ℝ) : ℝ :=
  z * (dcklCoef 0 0 * 1 + dcklCoef 0 1 * (2 * lam)) + z ^ 2 * (dcklCoef 1 0 * 1 + dcklCoef 1 1 * (2 * lam))
    + z ^ 3 * (dcklCoef 2 0 * 1 + dcklCoef 2 1 * (2 * lam))

/-- gamma_sw.py:595-631 `calc_g0HS`, one entry. -/
noncomputable def g0HS (lam z : ℝ) : ℝ := (1 - zetaEff lam z / 2) / (1 - zetaEff lam z) ^ 3

/-- gamma_sw.py:709: `dg0HSdzetaeff`, also inlined in `Asecond_order` (551). -/
noncomputable def dg0HS (lam z : ℝ) : ℝ := (2.5 - zetaEff lam z) / (1 - zetaEff lam z) ^ 4

variable {n m : ℕ}

/-- gamma_sw.py:228-235: `alphakl`. -/
noncomputable def alpha (ε σ lam : ℝ) : ℝ := 2 * Real.pi / 3 * ε * σ ^ 3 * (lam ^ 3 - 1)

/-- gamma_sw.py:311-322, column 3: the packing fraction used in every term. -/
noncomputable def packing (M ρ C : ℝ) (w σ : Fin m → Fin m → ℝ) : ℝ := moment M ρ C w σ 3

/-- gamma_sw.py:467-500 `Afirst_order`. -/
noncomputable def afirst (M ρ T C : ℝ) (w σ lam α : Fin m → Fin m → ℝ) : ℝ :=
  -(C ^ 2 / T) * ∑ k, ∑ l, (ρ * M) * (w k l * α k l) * g0HS (lam k l) (packing M ρ C w σ)

/-- gamma_sw.py:502-554 `Asecond_order`. -/
noncomputable def asecond (M ρ T C : ℝ) (w σ lam α ε : Fin m → Fin m → ℝ) : ℝ :=
  let z := packing M ρ C w σ
  let rho2 := C * ρ * M
  let tmp1 := khs z * rho2 / 2;
  -(C / T ^ 2) * ∑ k, ∑ l, tmp1 * (ε k l * α k l * w k l) *
    (g0HS (lam k l) z + z * dzetaEff (lam k l) z * (2.5 - zetaEff (lam k l) z) / (1 - zetaEff (lam k l) z) ^ 4)

/-- gamma_sw.py:633-674 `calc_gHS`, components with diameters `s` and `t`. -/
noncomputable def gHS (z2 z3 s t : ℝ) : ℝ :=
  let tmp1 := 1 / (1 - z3)
  let tmp2 := z2 / (1 - z3) ^ 2
  let tmp3 := z2 ^ 2 / (1 - z3) ^ 3
  let tmp := s * t / (s + t)
  tmp1 + 3 * tmp * tmp2 + 2 * tmp ^ 2 * tmp3

/-- gamma_sw.py:676-730 `calc_gSW`, one entry. -/
noncomputable def gSW (T ε lam s t z2 z3 : ℝ) : ℝ :=
  let dzetaeff := lam / 3 * dzetaDlam lam z3 - z3 * dzetaEff lam z3
  gHS z2 z3 s t + ε / T * (g0HS lam z3 + (lam ^ 3 - 1) * dg0HS lam z3 * dzetaeff)

/-- gamma_sw.py:857-860 in `calc_Kijklab`: `np.mean([sigma_ij[i], sigma_ij[j]])` averages the two
*rows* of the matrix. -/
noncomputable def dijBarSW (σ : Fin n → Fin n → ℝ) (i j : Fin n) : ℝ :=
  ((∑ k, σ i k) + ∑ k, σ j k) / (2 * n)

/-- gamma_mie.py:1437-1440 in `calc_Kijklab`: the same line, where `dii_eff` is a vector. -/
noncomputable def dijBarMie (d : Fin n → ℝ) (i j : Fin n) : ℝ := (d i + d j) / 2

end Verif.GammaSW
