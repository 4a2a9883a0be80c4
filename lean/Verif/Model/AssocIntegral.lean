import Verif.Model.MieTerms

/-!
# `saft/compiled_modules/ext_gamma_mie_python.py`: the correlation of the association integral

One density at a time.  `M` is `constants.molecule_per_nm3`.  The coefficients are the decimal numbers of the source.
-/

namespace Verif.AssocIntegral
open Verif Verif.Saft Verif.GammaMie Verif.MieTerms

variable {n m : ℕ}

/-- ext_gamma_mie_python.py:660-806: the table `cij`. -/
def cij : List (List ℚ) := [
    [7.56425183020431e-2, -1.28667137050961e-1, 1.28350632316055e-1, -7.25321780970292e-2, 2.57782547511452e-2,
     -6.01170055221687e-3, 9.33363147191978e-4, -9.55607377143667e-5, 6.19576039900837e-6, -2.30466608213628e-7,
     3.74605718435540e-9],
    [1.34228218276565e-1, -1.82682168504886e-1, 7.71662412959262e-2, -7.17458641164565e-4, -8.72427344283170e-3,
     2.97971836051287e-3, -4.84863997651451e-4, 4.35262491516424e-5, -2.07789181640066e-6, 4.13749349344802e-8, 0],
    [-5.65116428942893e-1, 1.00930692226792, -6.60166945915607e-1, 2.14492212294301e-1, -3.88462990166792e-2,
     4.06016982985030e-3, -2.39515566373142e-4, 7.25488368831468e-6, -8.58904640281928e-8, 0, 0],
    [-3.87336382687019e-1, -2.11614570109503e-1, 4.50442894490509e-1, -1.76931752538907e-1, 3.17171522104923e-2,
     -2.91368915845693e-3, 1.30193710011706e-4, -2.14505500786531e-6, 0, 0, 0],
    [2.13713180911797, -2.02798460133021, 3.36709255682693e-1, 1.18106507393722e-3, -6.00058423301506e-3,
     6.26343952584415e-4, -2.03636395699819e-5, 0, 0, 0, 0],
    [-3.00527494795524e-1, 2.89920714512243, -5.67134839686498e-1, 5.18085125423494e-2, -2.39326776760414e-3,
     4.15107362643844e-5, 0, 0, 0, 0, 0],
    [-6.21028065719194, -1.92883360342573, 2.84109761066570e-1, -1.57606767372364e-2, 3.68599073256615e-4, 0, 0,
     0, 0, 0, 0],
    [1.16083532818029e1, 7.42215544511197e-1, -8.23976531246117e-2, 1.86167650098254e-3, 0, 0, 0, 0, 0, 0, 0],
    [-1.02632535542427e1, -1.25035689035085e-1, 1.14299144831867e-2, 0, 0, 0, 0, 0, 0, 0, 0],
    [4.65297446837297, -1.92518067137033e-3, 0, 0, 0, 0, 0, 0, 0, 0, 0],
    [-8.67296219639940e-1, 0, 0, 0, 0, 0, 0, 0, 0, 0, 0]]

/-- `cij[p, q]`. Used in ext_gamma_mie_python.py:808-876. -/
def coef (p q : ℕ) : ℚ := (cij.getD p []).getD q 0

/-- ext_gamma_mie_python.py:651-655: the combining rule before it is mirrored. -/
noncomputable def epsCross (σ ε : Fin n → ℝ) (i j : Fin n) : ℝ :=
  √(σ i * σ j) ^ 3 * √(ε i * ε j) / ((σ i + σ j) / 2) ^ 3

/-- ext_gamma_mie_python.py:647-656: `epsilonij`, computed for `j ≥ i` and mirrored. -/
noncomputable def epsilonij (σ ε : Fin n → ℝ) (i j : Fin n) : ℝ := if i ≤ j then epsCross σ ε i j else epsCross σ ε j i

/-- ext_gamma_mie_python.py:658: `sigmax3`. -/
noncomputable def sigmax3 (M : ℝ) (σ w : Fin m → Fin m → ℝ) : ℝ := ∑ k, ∑ l, w k l * (σ k l ^ 3 * M)

/-- ext_gamma_mie_python.py:813-874: the power of the density for the exponent `p`, one branch each, from the powers
`rho2` to `rho5` that the earlier branches store. -/
noncomputable def power (s ρ : ℝ) (p : ℕ) : ℝ :=
  let rho2 := ρ ^ 2
  let rho3 := rho2 * ρ
  let rho4 := rho2 ^ 2
  let rho5 := rho2 * rho3
  match p with
  | 0 => 1
  | 1 => s * ρ
  | 2 => s ^ 2 * rho2
  | 3 => s ^ 3 * rho3
  | 4 => s ^ 4 * rho4
  | 5 => s ^ 5 * rho5
  | 6 => s ^ 6 * ρ * rho5
  | 7 => s ^ 7 * rho2 * rho5
  | 8 => s ^ 8 * rho3 * rho5
  | 9 => s ^ 9 * rho4 * rho5
  | 10 => s ^ 10 * rho5 * rho5
  | _ => 0

/-- ext_gamma_mie_python.py:808-876: the sum, the exponents of the temperature run up to `10 - p`. -/
noncomputable def series (s ρ τ : ℝ) : ℝ :=
  ((List.range 11).map fun p => ((List.range (11 - p)).map fun q => coef p q * power s ρ p * τ ^ q).sum).sum

/-- ext_gamma_mie_python.py:614-876 `calc_Iij`. -/
noncomputable def calcIij (M ρ T : ℝ) (ε σ : Fin n → ℝ) (σkl w : Fin m → Fin m → ℝ) (i j : Fin n) : ℝ :=
  series (sigmax3 M σkl w) ρ (T / epsilonij σ ε i j)

/-- gamma_mie.py:1338-1347: the call in `calc_gr_assoc`. -/
noncomputable def iij (M : ℝ) (P : Mie n m) (ρ T : ℝ) (x : Fin n → ℝ) : Fin n → Fin n → ℝ :=
  calcIij M ρ T (epsii P) (sigii P) P.σ (xskl P.g x)

/-- gamma_mie.py:1305-1353 `calc_gr_assoc` with its two correlations. -/
noncomputable def calcGr (M : ℝ) (P : Mie n m) (ρ T : ℝ) (x : Fin n → ℝ) (ktype : String) :
    Except PyErr (Fin n → Fin n → ℝ) :=
  grAssoc (iij M P ρ T x) M P ρ T x ktype

end Verif.AssocIntegral
