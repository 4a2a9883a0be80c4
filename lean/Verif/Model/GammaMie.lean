import Verif.Model.SaftToolbox

/-!
# `saft/compiled_modules/ext_gamma_mie_python.py` and the terms of `gamma_mie.py` built from it

One density and one component (or one pair of groups) at a time: the functions in the file are
applied elementwise.  Real powers are `Real.rpow`; the bases are positive on the states considered.
`M` is `constants.molecule_per_nm3`.
-/

namespace Verif.GammaMie
open Verif.Saft

/-- ext_gamma_mie_python.py:15-22: the table `ckl_coef`. -/
noncomputable def cklCoef : Fin 4 → Fin 4 → ℝ :=
  ![![0.81096, 1.7888, -37.578, 92.284],
    ![1.0205, -19.341, 151.26, -463.50],
    ![-1.9057, 22.845, -228.14, 973.92],
    ![1.0885, -6.1962, 106.98, -677.64]]

/-- ext_gamma_mie_python.py:25-44 `prefactor` when it does not raise. -/
noncomputable def prefactor (lr la : ℝ) : ℝ :=
  lr / (lr - la) * (lr / la) ^ (la / (lr - la))

/-- ext_gamma_mie_python.py:41-44 `prefactor` with its check (`np.any(l_r == 0.0)`) on a list of
exponent pairs. -/
noncomputable def prefactorChecked (ls : List (ℝ × ℝ)) : Option (List ℝ) :=
  open Classical in
  if ∃ l ∈ ls, l.1 = 0 then none else some (ls.map fun l => prefactor l.1 l.2)

/-- ext_gamma_mie_python.py:268-279 (also 88-99, 395-406): the coefficients of the effective packing
fraction for exponent `l`. -/
noncomputable def ceff (l : ℝ) (q : Fin 4) : ℝ :=
  cklCoef q 0 * 1 + cklCoef q 1 * (1 / l) + cklCoef q 2 * (1 / l ^ 2) + cklCoef q 3 * (1 / l ^ 3)

/-- ext_gamma_mie_python.py:280: `etaii_avg = np.dot(zetax_pow, tmp)`. -/
noncomputable def etaEff (l z : ℝ) : ℝ :=
  z * ceff l 0 + z ^ 2 * ceff l 1 + z ^ 3 * ceff l 2 + z ^ 4 * ceff l 3

/-- ext_gamma_mie_python.py:408: `rhos_detaii_avg_drhos`. -/
noncomputable def rhosDeta (l z : ℝ) : ℝ :=
  z * (ceff l 0 * 1) + z ^ 2 * (ceff l 1 * 2) + z ^ 3 * (ceff l 2 * 3) + z ^ 4 * (ceff l 3 * 4)

/-- ext_gamma_mie_python.py:228-293 `calc_a1s_eff`, and elementwise 47-114 `calc_a1s`. -/
noncomputable def a1sEff (M ρ C l z ε d : ℝ) : ℝ :=
  let η := etaEff l z;
  -(1 - η / 2) / (1 - η) ^ 3 * 2 * Real.pi * C * (ε * (d ^ 3 * M ^ 2) / (l - 3)) * ρ

/-- ext_gamma_mie_python.py:156 / 332 / 456: `Ikl`. -/
noncomputable def iFun (l x0 : ℝ) : ℝ := (1 - x0 ^ (3 - l)) / (l - 3)

/-- ext_gamma_mie_python.py:158-160 / 334-336 / 458-460: `Jkl`. -/
noncomputable def jFun (l x0 : ℝ) : ℝ :=
  (1 - x0 ^ (4 - l) * (l - 3) + x0 ^ (3 - l) * (l - 4)) / ((l - 3) * (l - 4))

/-- ext_gamma_mie_python.py:296-348 `calc_Bkl_eff`, and elementwise 117-173 `calc_Bkl`. -/
noncomputable def bEff (M ρ l C d ε x0 z : ℝ) : ℝ :=
  let rhos := C * ρ
  let tmp11 := rhos * (2 * Real.pi)
  let tmp12 := (d ^ 3 * M ^ 2) * ε
  let tmp2 := (1 - z / 2) / (1 - z) ^ 3
  let tmp3 := 9 * z * (1 + z) / (2 * (1 - z) ^ 3)
  tmp11 * tmp12 * (tmp2 * iFun l x0 - tmp3 * jFun l x0)

/-- ext_gamma_mie_python.py:176-225 `calc_a1ii`, one entry. -/
noncomputable def a1ii (M ρ C d la lr x0 ε z : ℝ) : ℝ :=
  prefactor lr la *
    (x0 ^ la / M * (a1sEff M ρ C la z ε d + bEff M ρ la C d ε x0 z)
      - x0 ^ lr / M * (a1sEff M ρ C lr z ε d + bEff M ρ lr C d ε x0 z))

/-- ext_gamma_mie_python.py:351-417 `calc_da1sii_drhos`. -/
noncomputable def da1s (M l z ε d : ℝ) : ℝ :=
  let η := etaEff l z
  let tmp1 := (1 - η / 2) / (1 - η) ^ 3 + (5 - 2 * η) / (2 * (1 - η) ^ 4) * rhosDeta l z
  let tmp2 := -2 * Real.pi * (ε * (d ^ 3 * M ^ 2) / (l - 3))
  tmp1 * tmp2

/-- ext_gamma_mie_python.py:420-474 `calc_dBkl_drhos`. -/
noncomputable def dB (M l d ε x0 z : ℝ) : ℝ :=
  let tmp := 2 * Real.pi * d ^ 3 * ε
  let tmp1 := (1 - z / 2) / (1 - z) ^ 3 * iFun l x0 - 9 * z * (1 + z) / (2 * (1 - z) ^ 3) * jFun l x0
  let tmp2 := (5 - 2 * z) * z / (2 * (1 - z) ^ 4) * iFun l x0
    - 9 * z * (z ^ 2 + 4 * z + 1) / (2 * (1 - z) ^ 4) * jFun l x0
  tmp * (tmp1 + tmp2) * M ^ 2

/-- ext_gamma_mie_python.py:477-525 `calc_da1iidrhos`. -/
noncomputable def da1ii (M d la lr x0 ε z : ℝ) : ℝ :=
  prefactor lr la *
    (x0 ^ la * (da1s M la z ε d + dB M la d ε x0 z) - x0 ^ lr * (da1s M lr z ε d + dB M lr d ε x0 z))

/-- gamma_mie.py:590-607 divided by `1 + chikl`: the second-order term with its compressibility
factor. -/
noncomputable def a2NoChi (M ρ C d la lr x0 ε z : ℝ) : ℝ :=
  khs z / 2 *
    ((x0 ^ (2 * la) * (a1sEff M ρ C (2 * la) z ε d + bEff M ρ (2 * la) C d ε x0 z) / M
      - 2 * x0 ^ (la + lr) * (a1sEff M ρ C (la + lr) z ε d + bEff M ρ (la + lr) C d ε x0 z) / M
      + x0 ^ (2 * lr) * (a1sEff M ρ C (2 * lr) z ε d + bEff M ρ (2 * lr) C d ε x0 z) / M)
      * (ε * prefactor lr la ^ 2))

/-- ext_gamma_mie_python.py:568-572: `dKHS_drhos`. -/
noncomputable def dKHS (rhos z : ℝ) : ℝ :=
  4 * (z ^ 2 - 5 * z - 2) * (1 - z) ^ 3 / (z ^ 4 - 4 * z ^ 3 + 4 * z ^ 2 + 4 * z + 1) ^ 2 * (z / rhos)

/-- ext_gamma_mie_python.py:528-611 `calc_da2ii_1pchi_drhos`. -/
noncomputable def da2 (M ρ C ε d x0 lr la z : ℝ) : ℝ :=
  let Cii := prefactor lr la
  let B := x0 ^ (2 * la) * (a1sEff M ρ C (2 * la) z ε d + bEff M ρ (2 * la) C d ε x0 z)
    - 2 * x0 ^ (la + lr) * (a1sEff M ρ C (la + lr) z ε d + bEff M ρ (la + lr) C d ε x0 z)
    + x0 ^ (2 * lr) * (a1sEff M ρ C (2 * lr) z ε d + bEff M ρ (2 * lr) C d ε x0 z)
  let dA_B := 0.5 * ε * Cii ^ 2 * B * dKHS (ρ * C) z
  let dB' := x0 ^ (2 * la) * (da1s M (2 * la) z ε d + dB M (2 * la) d ε x0 z)
    - 2 * x0 ^ (la + lr) * (da1s M (la + lr) z ε d + dB M (la + lr) d ε x0 z)
    + x0 ^ (2 * lr) * (da1s M (2 * lr) z ε d + dB M (2 * lr) d ε x0 z)
  let A_dB := 0.5 * ε * Cii ^ 2 * dB' * khs z
  A_dB + dA_B

/-- gamma_mie.py:750-768 `gdHS`, one component with reduced distance `x0`. -/
noncomputable def gdHS (x0 z : ℝ) : ℝ :=
  let k0 := -Real.log (1 - z) + (42 * z - 39 * z ^ 2 + 9 * z ^ 3 - 2 * z ^ 4) / (6 * (1 - z) ^ 3)
  let k1 := (z ^ 4 + 6 * z ^ 2 - 12 * z) / (2 * (1 - z) ^ 3)
  let k2 := -3 * z ^ 2 / (8 * (1 - z) ^ 2)
  let k3 := (-(z ^ 4) + 3 * z ^ 2 + 3 * z) / (6 * (1 - z) ^ 3)
  Real.exp (k0 + k1 * x0 + k2 * x0 ^ 2 + k3 * x0 ^ 3)

/-- saft_toolbox.py:73-100 `_dkk_int`: one minus the Boltzmann factor of the Mie potential at
distance `r`. -/
noncomputable def dkkInt (r CekT σ lr la : ℝ) : ℝ :=
  1 - Real.exp (-CekT * ((σ / r) ^ lr - (σ / r) ^ la))

/-- saft_toolbox.py:132-219: the two tables `w` and `x` (weights and nodes of the 40-point rule),
paired, in units of 10⁻⁹. -/
def gauss40 : List (ℤ × ℤ) :=
  [
   (77505948, -38772418), (77505948, 38772418), (77039818, -116084071), (77039818, 116084071),
   (76110362, -192697581), (76110362, 192697581), (74723169, -268152185), (74723169, 268152185),
   (72886582, -341994091), (72886582, 341994091), (70611647, -413779204), (70611647, 413779204),
   (67912046, -483075802), (67912046, 483075802), (64804013, -549467125), (64804013, 549467125),
   (61306242, -612553890), (61306242, 612553890), (57439769, -671956685), (57439769, 671956685),
   (53227847, -727318255), (53227847, 727318255), (48695808, -778305651), (48695808, 778305651),
   (43870908, -824612231), (43870908, 824612231), (38782168, -865959503), (38782168, 865959503),
   (33460195, -902098807), (33460195, 902098807), (27937007, -932812808), (27937007, 932812808),
   (22245849, -957916819), (22245849, 957916819), (16421058, -977259950), (16421058, 977259950),
   (10498285, -990726239), (10498285, 990726239), (4521277, -998237710), (4521277, 998237710)
  ]

/-- saft_toolbox.py:103-224 `calc_dkk`. -/
noncomputable def dkk (ε σ T Cpre lr la : ℝ) : ℝ :=
  let CekT := Cpre * ε / T
  0.5 * σ * (gauss40.map fun p =>
    (p.1 / 1000000000 : ℝ) * dkkInt (0.5 * σ * ((p.2 / 1000000000 : ℝ) + 1)) CekT σ lr la).sum

/-- saft_toolbox.py:51-62 in `calc_hard_sphere_matricies`: the diameter of one group, with the Mie
prefactor. -/
noncomputable def groupDiameter (ε σ T lr la : ℝ) : ℝ := dkk ε σ T (prefactor lr la) lr la

end Verif.GammaMie
