import Mathlib.Algebra.Order.Round
import Verif.Model.MieTerms
import Verif.Model.AssocXika

/-!
# `ext_gamma_mie_python.py`, `ext_gamma_mie_numba.py` and `ext_gamma_mie_cython.pyx` on arrays of densities

The three files have the same statements except for `prefactor`.  What differs between them on arrays is the element
type: several intermediate arrays are created with `dtype=rho.dtype`, and numba is compiled for arrays of floats
only.  Rows of the arrays belong to densities, which are independent of each other.
-/

namespace Verif.MieKernel
open Verif Verif.Saft Verif.GammaMie Verif.MieTerms Verif.Assoc

/-- The element type of the array of densities.
Used in ext_gamma_mie_python.py:81-84, 259-262, 385-388, ext_gamma_mie_numba.py:86-89, 287-290, 424-427, ext_gamma_mie_cython.pyx:63-66, 196-199, 289-292. -/
inductive DType
  | float
  | int
  deriving DecidableEq

/-- Assigning a float to an element of an array: integers drop what is behind the point.
Used in ext_gamma_mie_python.py:81-84, 259-262, 385-388, ext_gamma_mie_numba.py:86-89, 287-290, 424-427, ext_gamma_mie_cython.pyx:63-66, 196-199, 289-292. -/
noncomputable def store (dt : DType) (v : ℝ) : ℝ :=
  match dt with
  | .float => v
  | .int => if 0 ≤ v then (⌊v⌋ : ℝ) else (⌈v⌉ : ℝ)

/-- ext_gamma_mie_python.py:81-84, 259-262, 385-388; ext_gamma_mie_numba.py:86-89, 287-290, 424-427;
ext_gamma_mie_cython.pyx:63-66, 196-199, 289-292: one row of `zetax_pow`, of the type of the densities. -/
noncomputable def zetaPow (dt : DType) (z : ℝ) : ℕ → ℝ
  | 0 => store dt z
  | i + 1 => store dt (zetaPow dt z i * store dt z)

/-- ext_gamma_mie_python.py:86-102, 265-280, 391-407 and the same lines of the other two: one element of `etakl`,
`etaii_avg`, also of that type. -/
noncomputable def eta (dt : DType) (l z : ℝ) : ℝ := store dt (∑ q : Fin 4, zetaPow dt z q * ceff l q)

/-- ext_gamma_mie_python.py:408: one element of `rhos_detaii_avg_drhos`. -/
noncomputable def rhosDetaStored (dt : DType) (l z : ℝ) : ℝ :=
  store dt (∑ q : Fin 4, zetaPow dt z q * (ceff l q * ((q : ℕ) + 1)))

/-- ext_gamma_mie_python.py:47-114 `calc_a1s` and 228-293 `calc_a1s_eff`, one element. -/
noncomputable def a1s (dt : DType) (M ρ C l z ε d : ℝ) : ℝ :=
  let η := eta dt l z;
  -(1 - η / 2) / (1 - η) ^ 3 * 2 * Real.pi * C * (ε * (d ^ 3 * M ^ 2) / (l - 3)) * ρ

/-- ext_gamma_mie_python.py:351-417 `calc_da1sii_drhos`, one element. -/
noncomputable def da1sStored (dt : DType) (M l z ε d : ℝ) : ℝ :=
  let η := eta dt l z
  let tmp1 := (1 - η / 2) / (1 - η) ^ 3 + (5 - 2 * η) / (2 * (1 - η) ^ 4) * rhosDetaStored dt l z
  let tmp2 := -2 * Real.pi * (ε * (d ^ 3 * M ^ 2) / (l - 3))
  tmp1 * tmp2

/-- ext_gamma_mie_python.py:176-225 `calc_a1ii`, one element.  The arrays of `calc_Bkl` are floats. -/
noncomputable def a1iiStored (dt : DType) (M ρ C d la lr x0 ε z : ℝ) : ℝ :=
  prefactor lr la *
    (x0 ^ la / M * (a1s dt M ρ C la z ε d + bEff M ρ la C d ε x0 z)
      - x0 ^ lr / M * (a1s dt M ρ C lr z ε d + bEff M ρ lr C d ε x0 z))

/-- The three files' `prefactor` (python 25-44, numba 21-40, cython 14-33) on lists of pairs of exponents: the compiled
ones print a message instead of raising.  `none` is NaN, which `0 * 0 ** -1` gives.
ext_gamma_mie_python.py:25-44, ext_gamma_mie_numba.py:21-40, ext_gamma_mie_cython.pyx:14-33. -/
noncomputable def prefactorOf (impl : Impl) (ls : List (ℝ × ℝ)) : Except PyErr (List (Option ℝ)) :=
  open Classical in
  if (∃ l ∈ ls, l.1 = 0) ∧ impl = .python then .error .valueError
  else .ok (ls.map fun l => if l.1 = 0 then none else some (prefactor l.1 l.2))

/-- A call of a function on the array of densities.  The numba functions have the signature `f8[:]`, which no array of
integers fits; the cython file has no declared types. Used in gamma_mie.py:381-438. -/
noncomputable def call (impl : Impl) (dt : DType) (f : ℝ → ℝ) (ρs : List ℝ) : Except PyErr (List ℝ) :=
  if impl = .numba ∧ dt = .int then .error .typeError else .ok (ρs.map f)

variable {n m : ℕ}

/-- gamma_mie.py:381-438 `Afirst_order` with one implementation on an array of densities of one type. -/
noncomputable def afirstArray (impl : Impl) (dt : DType) (M : ℝ) (P : Mie n m) (ρs : List ℝ) (T : ℝ) (x : Fin n → ℝ) :
    Except PyErr (List ℝ) :=
  call impl dt (fun ρ =>
    let C := cmol2seg P.g x
    let z := zx M P ρ T x
    C / T * ∑ k, ∑ l, a1iiStored dt M ρ C (dkl P T k l) (P.la k l) (P.lr k l) (x0kl P T k l) (P.ε k l) z
      * xskl P.g x k l) ρs

/-- gamma_mie.py:590-607 divided by `1 + chikl`, one element. -/
noncomputable def a2Stored (dt : DType) (M ρ C d la lr x0 ε z : ℝ) : ℝ :=
  khs z / 2 *
    ((x0 ^ (2 * la) * (a1s dt M ρ C (2 * la) z ε d + bEff M ρ (2 * la) C d ε x0 z) / M
      - 2 * x0 ^ (la + lr) * (a1s dt M ρ C (la + lr) z ε d + bEff M ρ (la + lr) C d ε x0 z) / M
      + x0 ^ (2 * lr) * (a1s dt M ρ C (2 * lr) z ε d + bEff M ρ (2 * lr) C d ε x0 z) / M)
      * (ε * prefactor lr la ^ 2))

/-- gamma_mie.py:440-613 `Asecond_order` with one implementation on an array of densities of one type. -/
noncomputable def asecondArray (impl : Impl) (dt : DType) (M : ℝ) (P : Mie n m) (ρs : List ℝ) (T : ℝ) (x : Fin n → ℝ) :
    Except PyErr (List ℝ) :=
  call impl dt (fun ρ =>
    let C := cmol2seg P.g x
    let z := zx M P ρ T x
    let zs := zxstar M P ρ x
    C / T ^ 2 * ∑ k, ∑ l, a2Stored dt M ρ C (dkl P T k l) (P.la k l) (P.lr k l) (x0kl P T k l) (P.ε k l) z
      * (1 + chi zs (alphaOf (P.lr k l) (P.la k l))) * xskl P.g x k l) ρs

/-- ext_gamma_mie_python.py:477-525 `calc_da1iidrhos`, one element.  The arrays of `calc_dBkl_drhos` are floats. -/
noncomputable def da1iiStored (dt : DType) (M d la lr x0 ε z : ℝ) : ℝ :=
  prefactor lr la *
    (x0 ^ la * (da1sStored dt M la z ε d + dB M la d ε x0 z) - x0 ^ lr * (da1sStored dt M lr z ε d + dB M lr d ε x0 z))

/-- ext_gamma_mie_python.py:528-611 `calc_da2ii_1pchi_drhos`, one element. -/
noncomputable def da2Stored (dt : DType) (M ρ C ε d x0 lr la z : ℝ) : ℝ :=
  let Cii := prefactor lr la
  let B := x0 ^ (2 * la) * (a1s dt M ρ C (2 * la) z ε d + bEff M ρ (2 * la) C d ε x0 z)
    - 2 * x0 ^ (la + lr) * (a1s dt M ρ C (la + lr) z ε d + bEff M ρ (la + lr) C d ε x0 z)
    + x0 ^ (2 * lr) * (a1s dt M ρ C (2 * lr) z ε d + bEff M ρ (2 * lr) C d ε x0 z)
  let dA_B := 0.5 * ε * Cii ^ 2 * B * dKHS (ρ * C) z
  let dB' := x0 ^ (2 * la) * (da1sStored dt M (2 * la) z ε d + dB M (2 * la) d ε x0 z)
    - 2 * x0 ^ (la + lr) * (da1sStored dt M (la + lr) z ε d + dB M (la + lr) d ε x0 z)
    + x0 ^ (2 * lr) * (da1sStored dt M (2 * lr) z ε d + dB M (2 * lr) d ε x0 z)
  let A_dB := 0.5 * ε * Cii ^ 2 * dB' * khs z
  A_dB + dA_B

/-- gamma_mie.py:885-905 in `g1`, one component. -/
noncomputable def g1Stored (dt : DType) (M ρ C d la lr x0 ε z : ℝ) : ℝ :=
  let Cii := prefactor lr la
  let tmp1 := 1 / (2 * Real.pi * ε * d ^ 3 * M ^ 2)
  let tmp11 := 3 * da1iiStored dt M d la lr x0 ε z
  let tmp21 := Cii * la * x0 ^ la
  let tmp22 := (a1s dt M ρ C la z ε d + bEff M ρ la C d ε x0 z) * (1 / (ρ * C))
  let tmp31 := Cii * lr * x0 ^ lr
  let tmp32 := (a1s dt M ρ C lr z ε d + bEff M ρ lr C d ε x0 z) * (1 / (ρ * C))
  tmp1 * (tmp11 - tmp21 * tmp22 + tmp31 * tmp32)

/-- gamma_mie.py:1078-1109 in `g2`, one component: `g2MCA`. -/
noncomputable def g2mcaStored (dt : DType) (M ρ C d la lr x0 ε z : ℝ) : ℝ :=
  let Cii := prefactor lr la
  let eKC2 := khs z / ρ / C * (ε * Cii ^ 2)
  1 / (2 * Real.pi * ε ^ 2 * d ^ 3 * M ^ 2) *
    (3 * da2Stored dt M ρ C ε d x0 lr la z
      - eKC2 * lr * x0 ^ (2 * lr) * (a1s dt M ρ C (2 * lr) z ε d + bEff M ρ (2 * lr) C d ε x0 z)
      + eKC2 * (lr + la) * x0 ^ (lr + la) * (a1s dt M ρ C (la + lr) z ε d + bEff M ρ (la + lr) C d ε x0 z)
      - eKC2 * la * x0 ^ (2 * la) * (a1s dt M ρ C (2 * la) z ε d + bEff M ρ (2 * la) C d ε x0 z))

/-- gamma_mie.py:1143-1146: `gii`, component `i`. -/
noncomputable def giiStored (dt : DType) (M : ℝ) (P : Mie n m) (ρ T : ℝ) (x : Fin n → ℝ) (i : Fin n) : ℝ :=
  let C := cmol2seg P.g x
  let z := zx M P ρ T x
  let g0 := gdHS (x0ii P T i) z
  let g1 := g1Stored dt M ρ C (dii P T i) (laii P i) (lrii P i) (x0ii P T i) (epsii P i) z
  let g2 := (1 + gammac (zxstar M P ρ x) (epsii P i) T (alphaOf (lrii P i) (laii P i))) *
    g2mcaStored dt M ρ C (dii P T i) (laii P i) (lrii P i) (x0ii P T i) (epsii P i) z
  g0 * Real.exp (epsii P i * g1 / (T * g0) + (epsii P i / T) ^ 2 * g2 / g0)

/-- gamma_mie.py:1115-1160 `Achain` with one implementation on an array of densities of one type. -/
noncomputable def achainArray (impl : Impl) (dt : DType) (M : ℝ) (P : Mie n m) (ρs : List ℝ) (T : ℝ) (x : Fin n → ℝ) :
    Except PyErr (List ℝ) :=
  call impl dt (fun ρ => -∑ i, x i * beadsum P i * Real.log (giiStored dt M P ρ T x i)) ρs

/-- saft.py:687-690 `_check_density`: the type of the array is that of the numbers given. -/
def arrayType (allIntegers : Bool) : DType := if allIntegers then .int else .float

end Verif.MieKernel
