import Verif.Basic.Py
import Mathlib.Algebra.Order.Field.Basic
import Mathlib.Algebra.Order.Ring.Abs

/-!
# `saft/Aassoc.py`: association sites and association matrices

Groups and sites are referred to by their positions in the lists `beads` and `sitenames`, whose
entries are distinct.  A library entry such as `"epsilonHB-e-H"` of a group is a value of a function
of the group and the two site positions; an absent key is `none`.  `np.sqrt` and the cube root are
parameters.
-/

namespace Verif.Assoc

section indices
variable {K : Type} [Zero K] [DecidableEq K]

/-- Aassoc.py:90-93: the positions of the non-zero sites of every group. -/
def beadSites (nk : List (List K)) : List (List ℕ) :=
  nk.map fun bead => (bead.zipIdx.filter fun p => p.1 ≠ 0).map fun p => p.2

/-- Aassoc.py:62-104 `assoc_site_indices`.  Reading `bead_sites[j]` beyond the end raises
`IndexError`; the shapes agree in every call, and the theorems assume it. -/
def assocSiteIndices (nk comp : List (List K)) : List (ℕ × ℕ × ℕ) :=
  comp.zipIdx.flatMap fun ci => ci.1.zipIdx.flatMap fun bj =>
    if bj.1 ≠ 0 then ((beadSites nk).getD bj.2 []).map fun k => (ci.2, bj.2, k) else []

end indices

section initiate
variable {K : Type} [Zero K] {σ : Type} [DecidableEq σ]

/-- Aassoc.py:142-163, the state of the loops: `sitenames`, the finished rows of `nk` and the row of
the current group.  (Rows not reached yet are empty lists that are replaced when their turn comes.) -/
structure NkState (K σ : Type) where
  names : List σ
  done : List (List K)
  row : List K

/-- Aassoc.py:147-163: one entry of the dictionary of a group.  A key is given by its parts, split at
hyphens; `isNk` says whether the first part starts with `Nk` (`key.startswith("Nk")`).  Fewer than two
parts raise `ValueError`, and so does unpacking more than two. -/
def nkEntry (isNk : σ → Bool) (st : NkState K σ) (kv : List σ × K) : Except PyErr (NkState K σ) :=
  match kv.1 with
  | [] => .ok st
  | p :: rest =>
    if isNk p then
      match rest with
      | [site] =>
        if site ∈ st.names then
          .ok { st with row := st.row.set (st.names.idxOf site) kv.2 }
        else
          .ok { names := st.names ++ [site], done := st.done.map (· ++ [0]), row := st.row ++ [kv.2] }
      | _ => .error .valueError
    else .ok st

/-- Aassoc.py:145-163: one group. -/
def nkBead (isNk : σ → Bool) (st : NkState K σ) (entries : List (List σ × K)) :
    Except PyErr (NkState K σ) := do
  let st' ← entries.foldlM (nkEntry isNk) { st with row := st.names.map fun _ => 0 }
  .ok { names := st'.names, done := st'.done ++ [st'.row], row := [] }

/-- Aassoc.py:107-176 `initiate_assoc_matrices` up to `flag_assoc`: site names and the matrix `nk`
from the dictionaries of the groups, in the order of `beads`. -/
def initiateAssoc (isNk : σ → Bool) (beads : List (List (List σ × K))) :
    Except PyErr (List σ × List (List K)) := do
  let st ← beads.foldlM (nkBead isNk) { names := [], done := [], row := [] }
  .ok (st.names, st.done)

/-- Aassoc.py:165-169: `flag_assoc`. -/
def flagAssoc [DecidableEq K] (nk comp : List (List K)) : Bool := !(assocSiteIndices nk comp).isEmpty

end initiate

section matrices
variable {K : Type} [Field K] [LinearOrder K]

/-- A four-index array. Used in Aassoc.py:324-457. -/
abbrev Arr (K : Type) := ℕ → ℕ → ℕ → ℕ → K

/-- Assignment to one entry of a four-index array. Used in Aassoc.py:324-457. -/
def Arr.put (A : Arr K) (i j a b : ℕ) (v : K) : Arr K :=
  fun i' j' a' b' => if i' = i ∧ j' = j ∧ a' = a ∧ b' = b then v else A i' j' a' b'

/-- The pair of assignments `A[i, j, a, b] = v; A[j, i, b, a] = A[i, j, a, b]` that occurs throughout
Aassoc.py:324-457. -/
def Arr.put2 (A : Arr K) (i j a b : ℕ) (v : K) : Arr K :=
  let A' := A.put i j a b v
  A'.put j i b a (A' i j a b)

/-- Aassoc.py:259-266: the four matrices and the three flags. -/
structure Mats (K : Type) where
  eps : Arr K
  vol : Arr K
  rc : Arr K
  rd : Arr K
  fK : Bool
  frc : Bool
  frd : Bool

/-- Aassoc.py:259-266: the initial values. -/
def Mats.zero : Mats K :=
  { eps := fun _ _ _ _ => 0, vol := fun _ _ _ _ => 0, rc := fun _ _ _ _ => 0, rd := fun _ _ _ _ => 0,
    fK := false, frc := false, frd := false }

/-- The association entries of the dictionaries, for a group (`bead_library`) or for an ordered pair
of groups (`cross_library`). Used in Aassoc.py:278-345. -/
structure Lib (K ι : Type) where
  eps : ι → ℕ → ℕ → Option K
  vol : ι → ℕ → ℕ → Option K
  rc : ι → ℕ → ℕ → Option K
  rd : ι → ℕ → ℕ → Option K

/-- The inputs of `calc_assoc_matrices`. Used in Aassoc.py:270-345. -/
structure Cfg (K : Type) where
  nb : ℕ
  ns : ℕ
  nk : ℕ → ℕ → K
  slf : Lib K ℕ
  cross : Lib K (ℕ × ℕ)

/-- Aassoc.py:278-289: the key is tried with the sites in the loop order, then in the other order. -/
def orSwap (f : ℕ → ℕ → Option K) (a b : ℕ) : Option K := (f a b).or (f b a)

/-- Writing a value that may be absent, and its flag (Aassoc.py:332-345). -/
def putOpt (A : Arr K) (flag : Bool) (i j a b : ℕ) : Option K → Arr K × Bool
  | none => (A, flag)
  | some v => (A.put2 i j a b v, true)

/-- Aassoc.py:278-345: one pair of sites of one group.  All three consistency errors are
`ValueError`. -/
def selfCell (L : Lib K ℕ) (i a b : ℕ) (m : Mats K) : Except PyErr (Mats K) :=
  let e := orSwap (L.eps i) a b
  let k := orSwap (L.vol i) a b
  let rc := orSwap (L.rc i) a b
  let rd := orSwap (L.rd i) a b
  if e.isSome && (k.isNone && rc.isNone) then .error .valueError
  else if k.isSome && rc.isSome then .error .valueError
  else if e.isNone && (k.isSome || rc.isSome) then .error .valueError
  else
    match e with
    | none => .ok m
    | some ε =>
      let eps := m.eps.put2 i i a b (if a = b then -|ε| else ε)
      let (vol, fK) := putOpt m.vol m.fK i i a b k
      let (rc, frc) := putOpt m.rc m.frc i i a b rc
      let (rd, frd) := putOpt m.rd m.frd i i a b rd
      .ok { eps := eps, vol := vol, rc := rc, rd := rd, fK := fK, frc := frc, frd := frd }

/-- Aassoc.py:270-345: the loop over the pairs of sites of group `i`. -/
def selfA (c : Cfg K) (i : ℕ) (m : Mats K) (a : ℕ) : Except PyErr (Mats K) :=
  if c.nk i a = 0 then .ok m
  else ((List.range c.ns).drop a).foldlM
    (fun m b => if c.nk i b ≠ 0 then selfCell c.slf i a b m else .ok m) m

/-- Aassoc.py:267-345: all groups. -/
def selfAll (c : Cfg K) (m : Mats K) : Except PyErr (Mats K) :=
  (List.range c.nb).foldlM (fun m i => (List.range c.ns).foldlM (selfA c i) m) m

/-- The variables of the cross loop that survive from one group `j` to the next: the matrices, the
site positions `a` and `b`, and the key held by `epsilon_tmp`. Used in Aassoc.py:368-430. -/
structure CrossSt (K : Type) where
  m : Mats K
  a : ℕ
  b : ℕ
  key : ℕ × ℕ

/-- `if flag and key in cross_library[…]` (Aassoc.py:420-430). -/
def putCross (A : Arr K) (flag : Bool) (i j a b : ℕ) (v : Option K) : Arr K :=
  match v with
  | some v => if flag then A.put2 i j a b v else A
  | none => A

/-- Aassoc.py:368-430: the entry of the cross library is written, after exchanging the sites if they
were listed in the wrong order; the exchange assigns to the loop variables. -/
def crossHit (c : Cfg K) (i a0 b0 j : ℕ) (v : K) (st : CrossSt K) : Except PyErr (CrossSt K) :=
  let bad := c.nk i st.a = 0 ∨ c.nk j st.b = 0
  if bad ∧ (c.nk i st.b = 0 ∨ c.nk j st.a = 0) then .error .valueError
  else
    let a := if bad then st.b else st.a
    let b := if bad then st.a else st.b
    .ok { st with
      a := a
      b := b
      m := { st.m with
        eps := st.m.eps.put2 i j a b v
        vol := putCross st.m.vol st.m.fK i j a b (c.cross.vol (i, j) a0 b0)
        rc := putCross st.m.rc st.m.frc i j a b (c.cross.rc (i, j) a0 b0)
        rd := putCross st.m.rd st.m.frd i j a b (c.cross.rd (i, j) a0 b0) } }

/-- Aassoc.py:435-444: the energy combined from those of the two sites with themselves. -/
def combEps (sqrt : K → K) (c : Cfg K) (eps : Arr K) (i j a b : ℕ) : Arr K :=
  match c.slf.eps i a a, c.slf.eps j b b with
  | some ea, some eb =>
    if eps j i b a = 0 then
      eps.put2 i j a b (sqrt (eps i i a a * eps j j b b) *
        (-1 * (if ea * eb < 0 then -1 else if ea * eb = 0 then 0 else 1)))
    else eps
  | _, _ => eps

/-- Aassoc.py:445-457: a bonding parameter combined from those of the two sites with themselves. -/
def combVol (f : K → K → K) (A : Arr K) (flag : Bool) (i j a b : ℕ) : Arr K :=
  if flag && A i j a b = 0 then A.put2 i j a b (f (A i i a a) (A j j b b)) else A

/-- Aassoc.py:446-448: the mean of the cube roots, cubed. -/
def meanCube (cbrt : K → K) (x y : K) : K := ((cbrt x + cbrt y) / 2) ^ 3

/-- Aassoc.py:452 and 456: the mean. -/
def mean (x y : K) : K := (x + y) / 2

/-- Aassoc.py:432-457: no entry in the cross library.  `epsilon_tmp` is overwritten (433-434). -/
def crossMiss (sqrt cbrt : K → K) (c : Cfg K) (i j : ℕ) (st : CrossSt K) : CrossSt K :=
  { st with
    key := (st.b, st.b)
    m := { st.m with
      eps := combEps sqrt c st.m.eps i j st.a st.b
      vol := combVol (meanCube cbrt) st.m.vol st.m.fK i j st.a st.b
      rc := combVol mean st.m.rc st.m.frc i j st.a st.b
      rd := combVol mean st.m.rd st.m.frd i j st.a st.b } }

/-- Aassoc.py:359-457: the body of the innermost loop, over the second group `j`. -/
def crossJ (sqrt cbrt : K → K) (c : Cfg K) (i a0 b0 : ℕ) (st : CrossSt K) (j : ℕ) :
    Except PyErr (CrossSt K) :=
  if i = j ∧ st.a = st.b then .ok st
  else
    match c.cross.eps (i, j) st.key.1 st.key.2 with
    | some v => crossHit c i a0 b0 j v st
    | none => if c.nk j st.b ≠ 0 then .ok (crossMiss sqrt cbrt c i j st) else .ok st

/-- Aassoc.py:354-457: one second site; the variable `a` survives. -/
def crossB (sqrt cbrt : K → K) (c : Cfg K) (i a0 : ℕ) (s : Mats K × ℕ) (b0 : ℕ) :
    Except PyErr (Mats K × ℕ) := do
  let st ← (List.range c.nb).foldlM (crossJ sqrt cbrt c i a0 b0)
    { m := s.1, a := s.2, b := b0, key := (a0, b0) }
  .ok (st.m, st.a)

/-- Aassoc.py:350-457: one first site. -/
def crossA (sqrt cbrt : K → K) (c : Cfg K) (i : ℕ) (m : Mats K) (a0 : ℕ) : Except PyErr (Mats K) :=
  if c.nk i a0 = 0 then .ok m
  else do
    let s ← (List.range c.ns).foldlM (crossB sqrt cbrt c i a0) (m, a0)
    .ok s.1

/-- Aassoc.py:347-457: all groups. -/
def crossAll (sqrt cbrt : K → K) (c : Cfg K) (m : Mats K) : Except PyErr (Mats K) :=
  (List.range c.nb).foldlM (fun m i => (List.range c.ns).foldlM (crossA sqrt cbrt c i) m) m

/-- Aassoc.py:179-474 `calc_assoc_matrices` with `nk` and `sitenames` given; the matrices whose flag
is set are put into the output. -/
def calcAssoc (sqrt cbrt : K → K) (c : Cfg K) : Except PyErr (Mats K) := do
  let m ← selfAll c Mats.zero
  let m ← crossAll sqrt cbrt c m
  if m.fK && m.frc then .error .valueError
  else if m.frd && !m.frc then .error .valueError
  else .ok m

end matrices

/-- Aassoc.py:255-259 with `nk` or `sitenames` left out: `initiate_assoc_matrices` is called with its
first two arguments exchanged, so that iterating over `beads` iterates over the keys of the library
and looking up a group indexes the list of groups with a string (`TypeError`).  With an empty library
that call succeeds if no component has a group (`groups` is whether one has, in which case reading the
empty list of sites raises `IndexError`), and then `nsitesmax` is unbound. -/
def calcAssocDefault (libraryKeys : List String) (groups : Bool) : Except PyErr Unit :=
  match libraryKeys with
  | _ :: _ => .error .typeError
  | [] => if groups then .error .indexError else .error .unboundLocal

end Verif.Assoc
