import Verif.Model.AssocXika

/-!
# `saft/compiled_modules/ext_Aassoc_numba.py` and `ext_Aassoc_cython.pyx`: the compiled copies of the
association solve

The conventions are those of `Model/AssocXika.lean`.
-/

namespace Verif.Assoc

variable {K : Type} [Field K] [LinearOrder K] {n : ℕ}

/-! ## numba -/

/-- Reading an array at a counter. Used in ext_Aassoc_numba.py:141-153. -/
def atN (v : Fin n → K) (j : ℕ) : K := if h : j < n then v ⟨j, h⟩ else 0

/-- ext_Aassoc_numba.py:141-153 in `calc_Xika_4`, 248-260 in `calc_Xika_6`: the inner loop for one
`ind`.  The state is the array `Xika_elements_new` and the counter `jnd`. -/
def numbaInner (f : Fin n → K) (old : Fin n → K) (ind : ℕ) (new : ℕ → K) : (ℕ → K) × ℕ :=
  (List.finRange n).foldl
    (fun (st : (ℕ → K) × ℕ) t =>
      (Function.update st.1 ind (st.1 ind + f t * atN old st.2), st.2 + 1)) (new, 0)

/-- ext_Aassoc_numba.py:136-154 and 243-261: the outer loop with its counter `ind`, from an array of
ones. -/
def numbaSums (c : Fin n → Fin n → K) (old : Fin n → K) : (ℕ → K) × ℕ :=
  (List.finRange n).foldl
    (fun (st : (ℕ → K) × ℕ) s => ((numbaInner (c s) old st.2 st.1).1, st.2 + 1)) (fun _ => 1, 0)

/-- ext_Aassoc_numba.py:156 and 263: the reciprocals. -/
def numbaRhs (c : Fin n → Fin n → K) (old : Fin n → K) : Fin n → K :=
  fun s => 1 / (numbaSums c old).1 s

/-- ext_Aassoc_numba.py:134-165 and 241-272: the iteration at one density, `fuel` iterations left. -/
def numbaIter (c : Fin n → Fin n → K) (tol damp : K) : ℕ → (Fin n → K) → (Fin n → K) × Option K
  | 0, old => (old, none)
  | fuel + 1, old =>
    let new := numbaRhs c old
    let e := obj new old
    if e < tol then (old, some e)
    else
      let next := if e / vmax old > 1000 then fun s => old s + damp * (new s - old s) else new
      match numbaIter c tol damp fuel next with
      | (X, some e') => (X, some e')
      | (X, none) => (X, some e)

/-- ext_Aassoc_numba.py:132-168 and 239-275: the loop over the densities. -/
def numbaSweep (tol damp : K) (maxiter : ℕ) : List (Fin n → Fin n → K) → (Fin n → K) →
    List ((Fin n → K) × Option K)
  | [], _ => []
  | c :: cs, old =>
    let r := numbaIter c tol damp maxiter old
    r :: numbaSweep tol damp maxiter cs r.1

/-- ext_Aassoc_numba.py:79-170 `calc_Xika_4`; the number of iterations, the tolerance and the damping
are fixed (120-122). -/
def numbaXika4 (S : Sites K n) (v : ℕ → ℕ → ℕ → ℕ → K) (M : K) (rows : List (K × (ℕ → ℕ → K))) :
    List ((Fin n → K) × Option K) :=
  numbaSweep (1 / 10 ^ 12) (1 / 10) 500 (rows.map fun r s t =>
    M * r.1 * S.x (S.comp t) * S.ν (S.comp t) (S.grp t) * S.nk (S.grp t) (S.site t) *
      (S.F (S.grp s) (S.grp t) (S.site s) (S.site t) * v (S.grp s) (S.grp t) (S.site s) (S.site t) *
        r.2 (S.comp s) (S.comp t))) fun _ => 1 / 2

/-- ext_Aassoc_numba.py:186-277 `calc_Xika_6`. -/
def numbaXika6 (S : Sites K n) (v : ℕ → ℕ → ℕ → ℕ → ℕ → ℕ → K) (M : K)
    (rows : List (K × (ℕ → ℕ → K))) : List ((Fin n → K) × Option K) :=
  numbaSweep (1 / 10 ^ 12) (1 / 10) 500 (rows.map fun r s t =>
    M * r.1 * S.x (S.comp t) * S.ν (S.comp t) (S.grp t) * S.nk (S.grp t) (S.site t) *
      (S.F (S.grp s) (S.grp t) (S.site s) (S.site t) *
        v (S.comp s) (S.comp t) (S.grp s) (S.grp t) (S.site s) (S.site t) *
        r.2 (S.comp s) (S.comp t))) fun _ => 1 / 2

/-- ext_Aassoc_numba.py:7-63 `calc_Xika`: the choice by the number of indices.  (A bonding volume with
another number of indices is not representable here; `_calc_Xika_wrap` has refused it.) -/
def numbaXika (S : Sites K n) (M : K) (rows : List (K × (ℕ → ℕ → K))) :
    List ((Fin n → K) × Option K) :=
  match S.vol with
  | .klab v => numbaXika4 S v M rows
  | .ijklab v => numbaXika6 S v M rows

/-! ## cython -/

/-- ext_Aassoc_cython.pyx:9: `const_molecule_per_nm3`, written into the source. -/
def cyMolecules : K := 602214086 / 10 ^ 12

/-- ext_Aassoc_cython.pyx:103-109 and 168-174: the loop over the elements that adds up the change and
finds the largest *new* element, starting from zero. -/
def cyTest (new old : Fin n → K) : K × K :=
  (List.finRange n).foldl
    (fun (st : K × K) z => (st.1 + |new z - old z|, if new z > st.2 then new z else st.2)) (0, 0)

/-- ext_Aassoc_cython.pyx:77-119 and 143-184: the iteration at one density.  The module is compiled
without the directive `cdivision`, so that a division by zero raises. -/
def cyIter (c : Fin n → Fin n → K) (tol damp : K) :
    ℕ → (Fin n → K) → Except PyErr ((Fin n → K) × Option K)
  | 0, old => .ok (old, none)
  | fuel + 1, old =>
    if ∃ s, 1 + ∑ t, c s t * old t = 0 then .error .zeroDivision
    else
      let new := rhs c old
      let st := cyTest new old
      if st.1 < tol then .ok (old, some st.1)
      else if st.2 = 0 then .error .zeroDivision
      else
        let next := if st.1 / st.2 > 1000 then fun s => old s + damp * (new s - old s) else new
        match cyIter c tol damp fuel next with
        | .error e => .error e
        | .ok (X, some e) => .ok (X, some e)
        | .ok (X, none) => .ok (X, some st.1)

/-- ext_Aassoc_cython.pyx:76-122 and 142-187: the loop over the densities. -/
def cySweep (tol damp : K) (maxiter : ℕ) : List (Fin n → Fin n → K) → (Fin n → K) →
    Except PyErr (List ((Fin n → K) × Option K))
  | [], _ => .ok []
  | c :: cs, old =>
    match cyIter c tol damp maxiter old with
    | .error e => .error e
    | .ok r =>
      match cySweep tol damp maxiter cs r.1 with
      | .error e => .error e
      | .ok rs => .ok (r :: rs)

/-- ext_Aassoc_cython.pyx:11-58 `calc_Xika` with `calc_Xika_4` and `calc_Xika_6`, which differ in the
reading of the bonding volume only.  (The conversions of the arrays are left out.) -/
def cyXika (S : Sites K n) (rows : List (K × (ℕ → ℕ → K))) :
    Except PyErr (List ((Fin n → K) × Option K)) :=
  cySweep (1 / 10 ^ 12) (1 / 10) 500 (rows.map fun r => coef S cyMolecules r.1 r.2) fun _ => 1 / 2

end Verif.Assoc
