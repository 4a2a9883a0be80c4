import Verif.Model.GammaSW
import Verif.Model.CombiningRules

/-!
# `saft/gamma_sw.py`: the terms of the square-well fluid as functions of the group parameters

One density at a time (the code works elementwise on the array of densities), except for the guard of `Amonomer`.
Matrices over groups are functions on `Fin m`, vectors over components functions on `Fin n`.  `M` is
`constants.molecule_per_nm3`.
-/

namespace Verif.SWTerms
open Verif Verif.Saft Verif.GammaSW Verif.CombiningRules

variable {n m : ℕ}

/-- What the object stores besides the state: `molecular_composition`, `Vks`, `Sk`, the cross-interaction matrices
`epsilon_kl`, `sigma_kl`, `lambda_kl`, and `num_rings`. Used in gamma_sw.py:228-235. -/
structure SWell (n m : ℕ) where
  g : Groups n m
  ε : Fin m → Fin m → ℝ
  σ : Fin m → Fin m → ℝ
  lam : Fin m → Fin m → ℝ
  rings : Fin n → ℝ

/-- gamma_sw.py:228-235: `alphakl`. -/
noncomputable def alphakl (P : SWell n m) (k l : Fin m) : ℝ := alpha (P.ε k l) (P.σ k l) (P.lam k l)

/-- gamma_sw.py:264-268: `zki` before normalisation. -/
def zki (P : SWell n m) (i : Fin n) (k : Fin m) : ℝ := P.g.ν i k * P.g.V k * P.g.S k

/-- gamma_sw.py:269-273: the normalised `zki`. -/
noncomputable def zfrac (P : SWell n m) (i : Fin n) (k : Fin m) : ℝ := zki P i k / ∑ l, zki P i l

/-- gamma_sw.py:277 and 282: `sigmaii`, from the sizes of the groups themselves. -/
noncomputable def sigii (P : SWell n m) (i : Fin n) : ℝ := (∑ k, zfrac P i k * P.σ k k ^ 3) ^ ((1 : ℝ) / 3)

/-- gamma_sw.py:280: `epsilonii`. -/
noncomputable def epsii (P : SWell n m) (i : Fin n) : ℝ := ∑ k, ∑ l, zfrac P i k * zfrac P i l * P.ε k l

/-- gamma_sw.py:281: `lambdaii`. -/
noncomputable def lamii (P : SWell n m) (i : Fin n) : ℝ := ∑ k, ∑ l, zfrac P i k * zfrac P i l * P.lam k l

/-- gamma_sw.py:284-285 and eos_toolbox.py:322-362 `construct_dummy_bead_library`: component `i` as an entry of a
library. -/
noncomputable def compBead (P : SWell n m) (i : Fin n) : Bead := fun p =>
  if p = "sigma" then sigii P i else if p = "lambda" then lamii P i else if p = "epsilon" then epsii P i else 0

/-- eos_toolbox.py:281-315 for the components, which have no cross library: own values on the diagonal, the rule for
`i < j`, copied to `j, i`. -/
noncomputable def crossOf (self : Fin n → ℝ) (rule : Fin n → Fin n → ℝ) (i j : Fin n) : ℝ :=
  if i = j then self i else if i < j then rule i j else rule j i

/-- gamma_sw.py:286-287: `sigma_ij`. -/
noncomputable def sigij (P : SWell n m) : Fin n → Fin n → ℝ :=
  crossOf (sigii P) fun i j => mean (compBead P i) (compBead P j) "sigma"

/-- gamma_sw.py:286 and 288: `lambda_ij`. -/
noncomputable def lamij (P : SWell n m) : Fin n → Fin n → ℝ :=
  crossOf (lamii P) fun i j => weightedMean (compBead P i) (compBead P j) "lambda" "sigma"

/-- gamma_sw.py:286 and 289: `epsilon_ij`. -/
noncomputable def epsij (P : SWell n m) : Fin n → Fin n → ℝ :=
  crossOf (epsii P) fun i j => squareWellBerthelot (compBead P i) (compBead P j) "epsilon" "sigma" "lambda"

/-- gamma_sw.py:311-322 `reduced_density`, column `q`. -/
noncomputable def zeta (M : ℝ) (P : SWell n m) (ρ : ℝ) (x : Fin n → ℝ) (q : ℕ) : ℝ :=
  moment M ρ (cmol2seg P.g x) (xskl P.g x) P.σ q

/-- gamma_sw.py:434-465 `Ahard_sphere`. -/
noncomputable def ahs (M : ℝ) (P : SWell n m) (ρ : ℝ) (x : Fin n → ℝ) : ℝ := aHSsw M ρ (zeta M P ρ x)

/-- gamma_sw.py:467-500 `Afirst_order` at the state. -/
noncomputable def a1 (M : ℝ) (P : SWell n m) (ρ T : ℝ) (x : Fin n → ℝ) : ℝ :=
  afirst M ρ T (cmol2seg P.g x) (xskl P.g x) P.σ P.lam (alphakl P)

/-- gamma_sw.py:502-554 `Asecond_order` at the state. -/
noncomputable def a2 (M : ℝ) (P : SWell n m) (ρ T : ℝ) (x : Fin n → ℝ) : ℝ :=
  asecond M ρ T (cmol2seg P.g x) (xskl P.g x) P.σ P.lam (alphakl P) P.ε

/-- gamma_sw.py:587-591: the sum at one density. -/
noncomputable def amono (M : ℝ) (P : SWell n m) (ρ T : ℝ) (x : Fin n → ℝ) : ℝ := ahs M P ρ x + a1 M P ρ T x + a2 M P ρ T x

open Classical in
/-- gamma_sw.py:556-593 `Amonomer` at a list of densities: the guard is `np.all(rho > density_max(xi, T))` with the default
packing fraction 0.65, so it also raises for an empty list; then `_check_density`. -/
noncomputable def amonomer (M : ℝ) (P : SWell n m) (ρs : List ℝ) (T : ℝ) (x : Fin n → ℝ) : Except PyErr (List ℝ) :=
  if ρs.all fun ρ => decide (densityMax M (cmol2seg P.g x) (xskl P.g x) P.σ 0.65 < ρ) then .error .valueError
  else if ρs.any fun ρ => decide (ρ < 0) then .error .valueError
  else .ok (ρs.map fun ρ => amono M P ρ T x)

/-- gamma_sw.py:676-730 `calc_gSW`, components `i` and `j`; also `calc_gr_assoc` (801-829). -/
noncomputable def gsw (M : ℝ) (P : SWell n m) (ρ T : ℝ) (x : Fin n → ℝ) (i j : Fin n) : ℝ :=
  gSW T (epsij P i j) (lamij P i j) (sigij P i i) (sigij P j j) (zeta M P ρ x 2) (zeta M P ρ x 3)

/-- gamma_sw.py:756-761: `beadsum`. -/
noncomputable def beadsum (P : SWell n m) (i : Fin n) : ℝ := -1 + P.rings i + ∑ k, P.g.ν i k * P.g.V k * P.g.S k

/-- gamma_sw.py:732-767 `Achain`.  A logarithm of a negative number is NaN in the code. -/
noncomputable def achain (M : ℝ) (P : SWell n m) (ρ T : ℝ) (x : Fin n → ℝ) : ℝ :=
  -∑ i, x i * beadsum P i * Real.log (gsw M P ρ T x i i)

end Verif.SWTerms
