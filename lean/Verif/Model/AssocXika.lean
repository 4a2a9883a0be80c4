import Verif.Basic.Py
import Mathlib.Analysis.SpecialFunctions.Log.Basic
import Mathlib.Analysis.Real.Pi.Bounds
import Mathlib.Algebra.BigOperators.Fin
import Mathlib.Algebra.Order.Field.Basic

/-!
# `saft/compiled_modules/ext_Aassoc_python.py`, `Aassoc._calc_Xika_wrap`, `calc_bonding_volume` and
the association energy of `saft.py`

Floating point numbers are elements of a linearly ordered field (`ℚ` when a run is evaluated, `ℝ`
when logarithms occur).  The list `indices` of (component, group, site) triples is three functions
on `Fin n`; arrays over components, groups and sites are functions on `ℕ`, read only at those
indices.
-/

namespace Verif.Assoc

variable {K : Type} [Field K] [LinearOrder K]

/-- ext_Aassoc_python.py:70, 85-88: the bonding volumes are a four-index or a six-index array. -/
inductive Vol (K : Type) where
  | klab (v : ℕ → ℕ → ℕ → ℕ → K)
  | ijklab (v : ℕ → ℕ → ℕ → ℕ → ℕ → ℕ → K)

/-- Reading the bonding volume (ext_Aassoc_python.py:85-88). -/
def Vol.at : Vol K → ℕ → ℕ → ℕ → ℕ → ℕ → ℕ → K
  | .klab v, _, _, k, l, a, b => v k l a b
  | .ijklab v, i, j, k, l, a, b => v i j k l a b

/-- The arguments of `calc_Xika` (ext_Aassoc_python.py:11-23) that do not depend on the density. -/
structure Sites (K : Type) (n : ℕ) where
  comp : Fin n → ℕ
  grp : Fin n → ℕ
  site : Fin n → ℕ
  x : ℕ → K
  ν : ℕ → ℕ → K
  nk : ℕ → ℕ → K
  F : ℕ → ℕ → ℕ → ℕ → K
  vol : Vol K

variable {n : ℕ}

/-- ext_Aassoc_python.py:84-98: the factor of `Xika_elements_old[jnd]` in the sum for `ind`; `M` is
`constants.molecule_per_nm3`, `g` the slice `gr_assoc[r]`. -/
def coef (S : Sites K n) (M ρ : K) (g : ℕ → ℕ → K) (s t : Fin n) : K :=
  M * ρ * S.x (S.comp t) * S.ν (S.comp t) (S.grp t) * S.nk (S.grp t) (S.site t) *
    (S.F (S.grp s) (S.grp t) (S.site s) (S.site t) *
      S.vol.at (S.comp s) (S.comp t) (S.grp s) (S.grp t) (S.site s) (S.site t) *
      g (S.comp s) (S.comp t))

/-- ext_Aassoc_python.py:80-100: one evaluation of the right-hand side.  The code accumulates
`coef * old` starting from one and takes the reciprocal. -/
def rhs (c : Fin n → Fin n → K) (old : Fin n → K) : Fin n → K :=
  fun s => 1 / (1 + ∑ t, c s t * old t)

/-- ext_Aassoc_python.py:101: `obj`. -/
def obj (new old : Fin n → K) : K := ∑ s, |new s - old s|

/-- ext_Aassoc_python.py:106: python's `max` of the elements.  The empty case raises in python, but
is not reached: then `obj` is zero and the loop has been left. -/
def vmax (v : Fin n → K) : K :=
  match List.ofFn v with
  | [] => 0
  | h :: t => t.foldl max h

/-- ext_Aassoc_python.py:106-109: the update, damped when the change is large. -/
def update (damp : K) (old new : Fin n → K) : Fin n → K :=
  if obj new old / vmax old > 1000 then fun s => old s + damp * (new s - old s) else new

/-- ext_Aassoc_python.py:79-109: the iteration at one density, `fuel` iterations left.  Returns
`Xika_elements_old` and the last `obj` (`none` when no iteration was made, where python would leave
`obj` unbound or keep the previous one). -/
def iter (c : Fin n → Fin n → K) (tol damp : K) : ℕ → (Fin n → K) → (Fin n → K) × Option K
  | 0, old => (old, none)
  | fuel + 1, old =>
    let new := rhs c old
    if obj new old < tol then (old, some (obj new old))
    else
      match iter c tol damp fuel (update damp old new) with
      | (X, some e) => (X, some e)
      | (X, none) => (X, some (obj new old))

/-- ext_Aassoc_python.py:77-113: the loop over the densities; the elements are carried over from one
density to the next. -/
def sweep (tol damp : K) (maxiter : ℕ) : List (Fin n → Fin n → K) → (Fin n → K) →
    List ((Fin n → K) × Option K)
  | [], _ => []
  | c :: cs, old =>
    let r := iter c tol damp maxiter old
    r :: sweep tol damp maxiter cs r.1

/-- ext_Aassoc_python.py:11-118 `calc_Xika`: `rows` holds for every density its value and the slice
of `gr_assoc`. -/
def calcXika (S : Sites K n) (M : K) (rows : List (K × (ℕ → ℕ → K))) (maxiter : ℕ := 500)
    (tol : K := 1 / 10 ^ 12) (damp : K := 1 / 10) : List ((Fin n → K) × Option K) :=
  sweep tol damp maxiter (rows.map fun r => coef S M r.1 r.2) fun _ => 1 / 2

/-- saft.py:461-467 in `Aassoc`: the association energy at one density from the elements; the skip of
sites with `nk = 0` is the `if`. -/
noncomputable def aassoc (S : Sites ℝ n) (X : Fin n → ℝ) : ℝ :=
  ∑ s, if S.nk (S.grp s) (S.site s) ≠ 0 then
    S.x (S.comp s) * S.ν (S.comp s) (S.grp s) * S.nk (S.grp s) (S.site s) *
      (Real.log (X s) + (1 - X s) / 2) else 0

/-- saft.py:428: `Fklab`. -/
noncomputable def mayer (ε T : ℝ) : ℝ := Real.exp (ε / T) - 1

/-- The three implementations of `calc_Xika`, and the exceptions of the selection. Used in Aassoc.py:31-59. -/
inductive Impl where
  | cython | python | numba
  deriving DecidableEq, Repr

/-- Aassoc.py:16-28: importing the module.  `loaded` is `"cython" in sys.modules`, `compiled` whether
the compiled extension can be imported.  The result is `flag_cython` and whether the name
`calc_Xika_cython` is bound. -/
def importAassoc (loaded compiled : Bool) : Except PyErr (Bool × Bool) :=
  if !loaded then .ok (true, false)
  else if compiled then .ok (false, true)
  else .error .importError

/-- Aassoc.py:31-59 `_calc_Xika_wrap`; the branches for four and for six indices are the same.
`rank` is `len(np.shape(Kklab))`.  For another rank the name `Xika` is unbound; an unbound
`calc_Xika_cython` is a `NameError`, here `other`. -/
def calcXikaWrap (flag : Bool × Bool) (cython python numba : Bool) (rank : ℕ) : Except PyErr Impl :=
  if rank = 4 ∨ rank = 6 then
    if cython && flag.1 then (if flag.2 then .ok .cython else .error .other)
    else if python then .ok .python
    else if numba || !flag.1 then .ok .numba
    else .error .valueError
  else .error .unboundLocal

/-- Aassoc.py:519-532 in `calc_bonding_volume`: one entry with a non-zero cutoff distance. -/
noncomputable def bondVol (rc rd d : ℝ) : ℝ :=
  Real.pi * d ^ 2 / (18 * rd ^ 2) *
    (Real.log ((rc + 2 * rd) / d) * (6 * rc ^ 3 + 18 * rc ^ 2 * rd - 24 * rd ^ 3) +
      (rc + 2 * rd - d) *
        (22 * rd ^ 2 - 5 * rd * rc - 7 * rd * d - 8 * rc ^ 2 + rc * d + d ^ 2))

/-- Aassoc.py:514-517 in `calc_bonding_volume`: the site position, `rd` the entry of `rd_klab` if that
array was given. -/
noncomputable def siteDist (ratio d : ℝ) : Option ℝ → ℝ
  | none => ratio * d
  | some r => if r = 0 then ratio * d else r

/-- Aassoc.py:477-534 `calc_bonding_volume`, one entry. -/
noncomputable def bondVolEntry (ratio d rc : ℝ) (rd : Option ℝ) : ℝ :=
  if rc ≠ 0 then bondVol rc (siteDist ratio d rd) d else 0

end Verif.Assoc
