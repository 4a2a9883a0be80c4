import Mathlib.Analysis.SpecialFunctions.Trigonometric.DerivHyp
import Verif.Model.GammaMie
import Verif.Basic.Py

/-!
# `saft/gamma_mie.py`: the perturbation terms and the chain term as functions of the group parameters

One density at a time (the code works elementwise on the array of densities).  Matrices over groups are functions on
`Fin m`, vectors over components functions on `Fin n`.  `M` is `constants.molecule_per_nm3`.
-/

namespace Verif.MieTerms
open Verif Verif.Saft Verif.GammaMie

variable {n m : ℕ}

/-- What the object stores besides the state: `molecular_composition`, `Vks`, `Sk`; the cross-interaction matrices
`epsilonkl`, `sigmakl`, `lambdarkl`, `lambdaakl`; the four parameters of every group in `bead_library`, which
`calc_hard_sphere_matricies` reads; and `num_rings`. Used in saft_toolbox.py:52-62. -/
structure Mie (n m : ℕ) where
  g : Groups n m
  ε : Fin m → Fin m → ℝ
  σ : Fin m → Fin m → ℝ
  lr : Fin m → Fin m → ℝ
  la : Fin m → Fin m → ℝ
  bε : Fin m → ℝ
  bσ : Fin m → ℝ
  blr : Fin m → ℝ
  bla : Fin m → ℝ
  rings : Fin n → ℝ

/-! ## Quantities derived from the parameters -/

/-- gamma_mie.py:267-271 and 1511-1514: `alphakl` (also `alphaii`, 953-955). -/
noncomputable def alphaOf (lr la : ℝ) : ℝ := prefactor lr la * (1 / (la - 3) - 1 / (lr - 3))

/-- saft_toolbox.py:52-62: the diameters of the groups at temperature `T`. -/
noncomputable def dk (P : Mie n m) (T : ℝ) (k : Fin m) : ℝ :=
  groupDiameter (P.bε k) (P.bσ k) T (P.blr k) (P.bla k)

/-- saft_toolbox.py:63-66: `dkl`. -/
noncomputable def dkl (P : Mie n m) (T : ℝ) : Fin m → Fin m → ℝ := dklOf (dk P T)

/-- saft_toolbox.py:68: `x0kl`. -/
noncomputable def x0kl (P : Mie n m) (T : ℝ) (k l : Fin m) : ℝ := P.σ k l / dkl P T k l

/-- gamma_mie.py:311-316 and 1681-1686: `zki` before normalisation. -/
def zki (P : Mie n m) (i : Fin n) (k : Fin m) : ℝ := P.g.ν i k * P.g.V k * P.g.S k

/-- gamma_mie.py:317-321 and 1687-1691: the normalised `zki`. -/
noncomputable def zfrac (P : Mie n m) (i : Fin n) (k : Fin m) : ℝ := zki P i k / ∑ l, zki P i l

/-- gamma_mie.py:323-329: the double sum over the groups of a component. -/
noncomputable def avg (P : Mie n m) (q : Fin m → Fin m → ℝ) (i : Fin n) : ℝ :=
  ∑ k, ∑ l, zfrac P i k * zfrac P i l * q k l

/-- gamma_mie.py:327: `epsilonii_avg`. -/
noncomputable def epsii (P : Mie n m) : Fin n → ℝ := avg P P.ε
/-- gamma_mie.py:328: `lambdarii_avg`. -/
noncomputable def lrii (P : Mie n m) : Fin n → ℝ := avg P P.lr
/-- gamma_mie.py:329: `lambdaaii_avg`. -/
noncomputable def laii (P : Mie n m) : Fin n → ℝ := avg P P.la
/-- gamma_mie.py:326 and 330: `sigmaii_avg`. -/
noncomputable def sigii (P : Mie n m) (i : Fin n) : ℝ := avg P (fun k l => P.σ k l ^ 3) i ^ ((1 : ℝ) / 3)
/-- gamma_mie.py:1693-1698: `dii_eff`. -/
noncomputable def dii (P : Mie n m) (T : ℝ) (i : Fin n) : ℝ := avg P (fun k l => dkl P T k l ^ 3) i ^ ((1 : ℝ) / 3)
/-- gamma_mie.py:1701: `x0ii`. -/
noncomputable def x0ii (P : Mie n m) (T : ℝ) (i : Fin n) : ℝ := sigii P i / dii P T i

/-- gamma_mie.py:408-414 etc.: `zetax` at the state. -/
noncomputable def zx (M : ℝ) (P : Mie n m) (ρ T : ℝ) (x : Fin n → ℝ) : ℝ :=
  zetax M ρ (cmol2seg P.g x) (xskl P.g x) (dkl P T)

/-- gamma_mie.py:480-486 etc.: `zetaxstar` at the state. -/
noncomputable def zxstar (M : ℝ) (P : Mie n m) (ρ : ℝ) (x : Fin n → ℝ) : ℝ :=
  zetax M ρ (cmol2seg P.g x) (xskl P.g x) P.σ

/-! ## The correction functions `calc_fm` -/

/-- gamma_mie.py:1227-1293: the table `phimn`. -/
noncomputable def phimn : Fin 7 → Fin 7 → ℝ :=
  ![![7.5365557, -37.60463, 71.745953, -46.83552, -2.467982, -0.50272, 8.0956883],
    ![-359.44, 1825.6, -3168, 1884.2, -0.82376, -3.1935, 3.709],
    ![1550.9, -5070.1, 6534.6, -3288.7, -2.7171, 2.0883, 0],
    ![-1.19932, 9.063632, -17.9482, 11.34027, 20.52142, -56.6377, 40.53683],
    ![-1911.28, 21390.175, -51320.7, 37064.54, 1103.742, -3264.61, 2556.181],
    ![9236.9, -129430, 357230, -315530, 1390.2, -4518.2, 4241.6],
    ![10, 10, 0.57, -6.7, -8, 0, 0]]

/-- gamma_mie.py:1298-1300: `dum`, for the row `m`; `alphakl ** (n - 3.0)` has the exponents one to three. -/
noncomputable def fmDen (q : Fin 7) (α : ℝ) : ℝ := 1 + phimn q 4 * α + phimn q 5 * α ^ 2 + phimn q 6 * α ^ 3

/-- gamma_mie.py:1296-1297. -/
noncomputable def fmNum (q : Fin 7) (α : ℝ) : ℝ := phimn q 0 + phimn q 1 * α + phimn q 2 * α ^ 2 + phimn q 3 * α ^ 3

/-- gamma_mie.py:1197-1303 `calc_fm`, one entry of `mlist` and of `alphakl`; `mlist - 1` indexes the table.  An index of
zero reads the last row, as in NumPy; an index beyond seven raises `IndexError`. -/
noncomputable def fm (q : ℕ) (α : ℝ) : Except PyErr ℝ :=
  match q with
  | 0 => .ok (fmNum 6 α / fmDen 6 α)
  | q + 1 => if h : q < 7 then .ok (fmNum ⟨q, h⟩ α / fmDen ⟨q, h⟩ α) else .error .indexError

/-- The entries that the energy uses. Used in gamma_mie.py:491-494. -/
noncomputable def f (q : Fin 7) (α : ℝ) : ℝ := fmNum q α / fmDen q α

/-! ## The monomer terms -/

/-- gamma_mie.py:381-438 `Afirst_order`. -/
noncomputable def afirst (M : ℝ) (P : Mie n m) (ρ T : ℝ) (x : Fin n → ℝ) : ℝ :=
  let C := cmol2seg P.g x
  let z := zx M P ρ T x
  C / T * ∑ k, ∑ l, a1ii M ρ C (dkl P T k l) (P.la k l) (P.lr k l) (x0kl P T k l) (P.ε k l) z * xskl P.g x k l

/-- gamma_mie.py:491-494: `chikl`. -/
noncomputable def chi (zs α : ℝ) : ℝ := zs * f 0 α + zs ^ 5 * f 1 α + zs ^ 8 * f 2 α

/-- gamma_mie.py:440-613 `Asecond_order`.  `a2NoChi` is lines 590-607 without the factor `1 + chikl`. -/
noncomputable def asecond (M : ℝ) (P : Mie n m) (ρ T : ℝ) (x : Fin n → ℝ) : ℝ :=
  let C := cmol2seg P.g x
  let z := zx M P ρ T x
  let zs := zxstar M P ρ x
  C / T ^ 2 * ∑ k, ∑ l, a2NoChi M ρ C (dkl P T k l) (P.la k l) (P.lr k l) (x0kl P T k l) (P.ε k l) z
    * (1 + chi zs (alphaOf (P.lr k l) (P.la k l))) * xskl P.g x k l

/-- gamma_mie.py:649-654: `a3kl`, one entry. -/
noncomputable def a3 (zs ε α : ℝ) : ℝ := zs * (-(ε ^ 3) * f 3 α) * Real.exp (zs * f 4 α + zs ^ 2 * f 5 α)

/-- gamma_mie.py:615-660 `Athird_order`. -/
noncomputable def athird (M : ℝ) (P : Mie n m) (ρ T : ℝ) (x : Fin n → ℝ) : ℝ :=
  let C := cmol2seg P.g x
  let zs := zxstar M P ρ x
  C / T ^ 3 * ∑ k, ∑ l, a3 zs (P.ε k l) (alphaOf (P.lr k l) (P.la k l)) * xskl P.g x k l

/-- gamma_mie.py:334-379 `Ahard_sphere` at the state. -/
noncomputable def ahs (M : ℝ) (P : Mie n m) (ρ T : ℝ) (x : Fin n → ℝ) : ℝ :=
  mieHardSphere M ρ P.g x (dk P T)

open Classical in
/-- gamma_mie.py:662-711 `Amonomer` at a list of densities: the guard is `np.all(rho >= density_max(maxpack=1))`, so it
also raises for an empty list. -/
noncomputable def amonomer (M : ℝ) (P : Mie n m) (ρs : List ℝ) (T : ℝ) (x : Fin n → ℝ) : Except PyErr (List ℝ) :=
  if ρs.all fun ρ => decide (densityMax M (cmol2seg P.g x) (xskl P.g x) (dkl P T) 1 ≤ ρ) then .error .valueError
  else if ρs.any fun ρ => decide (ρ < 0) then .error .valueError
  else .ok (ρs.map fun ρ => ahs M P ρ T x + afirst M P ρ T x + asecond M P ρ T x + athird M P ρ T x)

/-! ## The chain term -/

/-- gamma_mie.py:885-905 in `g1`, one component: averaged exponents, contact distance and well depth. -/
noncomputable def g1Of (M ρ C d la lr x0 ε z : ℝ) : ℝ :=
  let Cii := prefactor lr la
  let tmp1 := 1 / (2 * Real.pi * ε * d ^ 3 * M ^ 2)
  let tmp11 := 3 * da1ii M d la lr x0 ε z
  let tmp21 := Cii * la * x0 ^ la
  let tmp22 := (a1sEff M ρ C la z ε d + bEff M ρ la C d ε x0 z) * (1 / (ρ * C))
  let tmp31 := Cii * lr * x0 ^ lr
  let tmp32 := (a1sEff M ρ C lr z ε d + bEff M ρ lr C d ε x0 z) * (1 / (ρ * C))
  tmp1 * (tmp11 - tmp21 * tmp22 + tmp31 * tmp32)

/-- gamma_mie.py:1078-1109 in `g2`, one component: `g2MCA`. -/
noncomputable def g2mcaOf (M ρ C d la lr x0 ε z : ℝ) : ℝ :=
  let Cii := prefactor lr la
  let eKC2 := khs z / ρ / C * (ε * Cii ^ 2)
  1 / (2 * Real.pi * ε ^ 2 * d ^ 3 * M ^ 2) *
    (3 * da2 M ρ C ε d x0 lr la z
      - eKC2 * lr * x0 ^ (2 * lr) * (a1sEff M ρ C (2 * lr) z ε d + bEff M ρ (2 * lr) C d ε x0 z)
      + eKC2 * (lr + la) * x0 ^ (lr + la) * (a1sEff M ρ C (la + lr) z ε d + bEff M ρ (la + lr) C d ε x0 z)
      - eKC2 * la * x0 ^ (2 * la) * (a1sEff M ρ C (2 * la) z ε d + bEff M ρ (2 * la) C d ε x0 z))

/-- gamma_mie.py:958-966: `gammacii`, one component. -/
noncomputable def gammac (zs ε T α : ℝ) : ℝ :=
  10 * (-Real.tanh (10 * (0.57 - α)) + 1) * zs * (Real.exp (ε / T) - 1) * Real.exp (-6.7 * zs + -8 * zs ^ 2)

/-- gamma_mie.py:770-905 `g1`, component `i`. -/
noncomputable def g1 (M : ℝ) (P : Mie n m) (ρ T : ℝ) (x : Fin n → ℝ) (i : Fin n) : ℝ :=
  g1Of M ρ (cmol2seg P.g x) (dii P T i) (laii P i) (lrii P i) (x0ii P T i) (epsii P i) (zx M P ρ T x)

/-- gamma_mie.py:907-1113 `g2`, component `i`. -/
noncomputable def g2 (M : ℝ) (P : Mie n m) (ρ T : ℝ) (x : Fin n → ℝ) (i : Fin n) : ℝ :=
  (1 + gammac (zxstar M P ρ x) (epsii P i) T (alphaOf (lrii P i) (laii P i))) *
    g2mcaOf M ρ (cmol2seg P.g x) (dii P T i) (laii P i) (lrii P i) (x0ii P T i) (epsii P i) (zx M P ρ T x)

/-- gamma_mie.py:1143-1146: `gii`, component `i`. -/
noncomputable def gii (M : ℝ) (P : Mie n m) (ρ T : ℝ) (x : Fin n → ℝ) (i : Fin n) : ℝ :=
  let g0 := gdHS (x0ii P T i) (zx M P ρ T x)
  g0 * Real.exp (epsii P i * g1 M P ρ T x i / (T * g0) + (epsii P i / T) ^ 2 * g2 M P ρ T x i / g0)

/-- gamma_mie.py:1150-1154: `beadsum`. -/
noncomputable def beadsum (P : Mie n m) (i : Fin n) : ℝ := -1 + P.rings i + ∑ k, P.g.ν i k * P.g.V k * P.g.S k

/-- gamma_mie.py:1115-1160 `Achain`. -/
noncomputable def achain (M : ℝ) (P : Mie n m) (ρ T : ℝ) (x : Fin n → ℝ) : ℝ :=
  -∑ i, x i * beadsum P i * Real.log (gii M P ρ T x i)

/-! ## The association contact values -/

/-- `eta[:, q] = v` for one density: a column that does not exist raises `IndexError`.
Used in gamma_mie.py:1381-1391. -/
def setColumn (cols : List ℝ) (q : ℕ) (v : ℝ) : Except PyErr (List ℝ) :=
  if q < cols.length then .ok (cols.set q v) else .error .indexError

/-- gamma_mie.py:1381-1391 in `calc_gdHS_assoc`: `eta` has two columns, the loop runs over `range(2, 4)` and writes the
moment of order `q` into the column `q`. -/
noncomputable def etaColumns (M ρ C : ℝ) (w d : Fin m → Fin m → ℝ) : Except PyErr (List ℝ) :=
  [2, 3].foldlM (fun cols q => setColumn cols q (moment M ρ C w d q)) [0, 0]

/-- gamma_mie.py:1393-1404: the contact value of the components `i` and `j` from the two columns. -/
noncomputable def grOf (e0 e1 di dj : ℝ) : ℝ :=
  let tmp0 := 1 / (1 - e1)
  let tmp1 := e0 / (1 - e1) ^ 2
  let tmp2 := e0 ^ 2 / (1 - e1) ^ 3
  let tmp := di * dj / (di + dj)
  tmp0 + 3 * tmp * tmp1 + 2 * tmp ^ 2 * tmp2

/-- gamma_mie.py:1355-1406 `calc_gdHS_assoc`, one density. -/
noncomputable def gdHSassoc (M : ℝ) (P : Mie n m) (ρ T : ℝ) (x : Fin n → ℝ) : Except PyErr (Fin n → Fin n → ℝ) := do
  let cols ← etaColumns M ρ (cmol2seg P.g x) (xskl P.g x) (dkl P T)
  .ok fun i j => grOf (cols.getD 0 0) (cols.getD 1 0) (dii P T i) (dii P T j)

/-- gamma_mie.py:1305-1353 `calc_gr_assoc`, one density; `iij` stands for `calc_Iij`. -/
noncomputable def grAssoc (iij : Fin n → Fin n → ℝ) (M : ℝ) (P : Mie n m) (ρ T : ℝ) (x : Fin n → ℝ) (ktype : String) :
    Except PyErr (Fin n → Fin n → ℝ) :=
  if ktype = "klab" then .ok iij
  else if ktype = "ijklab" then gdHSassoc M P ρ T x
  else .error .valueError

end Verif.MieTerms
