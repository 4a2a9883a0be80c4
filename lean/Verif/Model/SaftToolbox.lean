import Mathlib.Analysis.Real.Pi.Bounds
import Mathlib.Analysis.SpecialFunctions.Log.Basic
import Mathlib.Analysis.SpecialFunctions.Pow.Real
import Mathlib.Analysis.SpecialFunctions.Sqrt
import Mathlib.Algebra.BigOperators.Fin

/-!
# `despasito/equations_of_state/saft/saft_toolbox.py`, and the parts of `gamma_mie.py` and
`gamma_sw.py` that turn densities into packing fractions

Floating point numbers are real numbers; a NumPy vector over components (groups) is a function on
`Fin n` (`Fin m`).  `constants.molecule_per_nm3` is a parameter `M`.
-/

namespace Verif.Saft

variable {n m : ℕ}

/-- The composition data every function below reads: `molecular_composition`, and `Vks`, `Sk` of the
groups in the bead library, in the order of `beads`. Used in saft_toolbox.py:260-266. -/
structure Groups (n m : ℕ) where
  ν : Fin n → Fin m → ℝ
  V : Fin m → ℝ
  S : Fin m → ℝ

/-- saft_toolbox.py:260-266: the accumulation loop for `Cmol2seg`. -/
def cmol2seg (g : Groups n m) (x : Fin n → ℝ) : ℝ :=
  ∑ i, ∑ j, x i * g.ν i j * g.V j * g.S j

/-- saft_toolbox.py:268-274: `xsk`.  When `Cmol2seg` is zero NumPy gives NaN; the theorems require it
to be positive. -/
noncomputable def xsk (g : Groups n m) (x : Fin n → ℝ) (k : Fin m) : ℝ :=
  (∑ i, x i * g.ν i k) * g.V k * g.S k / cmol2seg g x

/-- saft_toolbox.py:276-280: `xskl`. -/
noncomputable def xskl (g : Groups n m) (x : Fin n → ℝ) (k l : Fin m) : ℝ :=
  xsk g x k * xsk g x l

/-- saft_toolbox.py:314-339 `calc_zetax` (and, with `sigmakl` for `dkl`, `calc_zetaxstar` at
285-311), one density. -/
noncomputable def zetax (M ρ C : ℝ) (w d : Fin m → Fin m → ℝ) : ℝ :=
  ρ * C * (Real.pi / 6 * ∑ k, ∑ l, w k l * (d k l ^ 3 * M))

/-- saft_toolbox.py:342-361 `calc_KHS`, one density. -/
noncomputable def khs (z : ℝ) : ℝ :=
  (1 - z) ^ 4 / (1 + 4 * z + 4 * z ^ 2 - 4 * z ^ 3 + z ^ 4)

/-- gamma_mie.py:1162-1194 `density_max`; gamma_sw.py:769-799 is the same expression with `sigma_kl`
for `dkl`. -/
noncomputable def densityMax (M C : ℝ) (w d : Fin m → Fin m → ℝ) (maxpack : ℝ) : ℝ :=
  maxpack * 6 / (C * Real.pi * ∑ k, ∑ l, w k l * d k l ^ 3) / M

/-- gamma_mie.py:357-366 (`eta`, with `dkl`) and gamma_sw.py:310-322 (`reduced_density`, with
`sigma_kl`): the moment of order `q` of the diameter distribution; `np.sqrt(np.diag(xskl))` is
`√(xskl k k)`. -/
noncomputable def moment (M ρ C : ℝ) (w d : Fin m → Fin m → ℝ) (q : ℕ) : ℝ :=
  ρ * M * C * ((∑ k, √(w k k) * d k k ^ q) * (Real.pi / 6))

/-- saft_toolbox.py:63-66 in `calc_hard_sphere_matricies`: the matrix `dkl` from the diagonal
diameters. -/
noncomputable def dklOf (d : Fin m → ℝ) (k l : Fin m) : ℝ := (d k + d l) / 2

/-- gamma_mie.py:334-379 `Ahard_sphere` for one density, as a function of the four moments; `pure` is
the test `self.ncomp == 1`. `np.log1p(-eta3)` is `log (1 - eta3)`. -/
noncomputable def aHSmie (pure : Bool) (M ρ : ℝ) (η : ℕ → ℝ) : ℝ :=
  let tmp := 6 / (Real.pi * ρ * M)
  let tmp1 := if pure then 0 else Real.log (1 - η 3) * (η 2 ^ 3 / η 3 ^ 2 - η 0)
  let tmp2 := 3 * η 2 / (1 - η 3) * η 1
  let tmp3 := η 2 ^ 3 / (η 3 * (1 - η 3) ^ 2)
  tmp * (tmp1 + tmp2 + tmp3)

/-- gamma_sw.py:434-465 `Ahard_sphere`: the same formula without the special case. -/
noncomputable def aHSsw (M ρ : ℝ) (η : ℕ → ℝ) : ℝ := aHSmie false M ρ η

/-- gamma_mie.py:377-379 for a molecule of the Mie variant: moments at the hard-sphere diameters,
with the special case taken exactly when there is one component. -/
noncomputable def mieHardSphere (M ρ : ℝ) (g : Groups n m) (x : Fin n → ℝ) (d : Fin m → ℝ) : ℝ :=
  aHSmie (n == 1) M ρ (moment M ρ (cmol2seg g x) (xskl g x) (dklOf d))

end Verif.Saft
