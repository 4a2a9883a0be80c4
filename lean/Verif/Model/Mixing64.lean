import Verif.Model.Pressure64

/-!
# The mixing rules of `equations_of_state/cubic/peng_robinson.py` in double precision

A double is the rational number it stands for, and every operation is rounded (`Verif.Binary64.fl`); results beyond the
largest double are not modelled.  The parameters of the components at the temperature are the doubles in `eos_dict`.
-/

namespace Verif.Mixing64
open Verif.Binary64

/-- `np.sqrt` of a positive double, correctly rounded; the square root of a double is never half-way between two doubles.
Zero for zero; a negative number, for which the code gets NaN, is left out. Used in peng_robinson.py:182-187; the definition of the
IEEE standard. -/
def flSqrt (q : ℚ) : ℚ :=
  if q ≤ 0 then 0
  else
    let e := Int.log 2 q / 2 - 52
    let s := q / 4 ^ e
    let n := Nat.sqrt ⌊s⌋₊
    (if s ≤ (n : ℚ) ^ 2 + n + 1 / 4 then (n : ℚ) else n + 1) * 2 ^ e

/-- The arrays in `eos_dict` at one temperature. peng_robinson.py:112-119. -/
structure Par (n : ℕ) where
  ai : Fin n → ℚ
  bi : Fin n → ℚ
  alpha : Fin n → ℚ
  kij : Fin n → Fin n → ℚ

variable {n : ℕ}

/-- peng_robinson.py:179-189: one term of the double loop, in the order of its operations. -/
def term (p : Par n) (x : Fin n → ℚ) (i j : Fin n) : ℚ :=
  fl (fl (fl (x i * x j) * flSqrt (fl (fl (fl (p.ai i * p.alpha i) * p.ai j) * p.alpha j))) * fl (1 - p.kij i j))

/-- peng_robinson.py:175-191: `eos_dict["aij"]`, summed up term by term. -/
def amix (p : Par n) (x : Fin n → ℚ) : ℚ :=
  ((List.finRange n).flatMap fun i => (List.finRange n).map fun j => (i, j)).foldl (fun s t => fl (s + term p x t.1 t.2)) 0

/-- peng_robinson.py:192: `eos_dict["bij"]`. -/
def bmix (p : Par n) (x : Fin n → ℚ) : ℚ := npSum ((List.finRange n).map fun i => fl (x i * p.bi i))

/-- peng_robinson.py:194-229 `pressure` at one density, with the parameters of the components. -/
def pressure (R T : ℚ) (p : Par n) (x : Fin n → ℚ) (ρ : ℚ) : ℚ := Pressure64.pressure R T (amix p x) (bmix p x) ρ

end Verif.Mixing64
