import Verif.Model.AssocXika
import Verif.Model.AssocIntegral
import Verif.Model.DensityReach

/-!
# The association contribution of SAFT

`saft.py:395-476` `Aassoc`, with NaN and infinities, as one of the contributions of `Model/SaftEnergy.lean`.
-/

namespace Verif.AssocContribution
open Verif Verif.Assoc Verif.SaftEnergy

/-- What `Aassoc` reads from the object (saft.py:416-446): the number of components, the list of sites (`assoc_site_indices`,
Aassoc.py:62-104, which does not depend on the composition), the groups, the numbers of sites, the energies, the bonding volume
as a function of the temperature, and `calc_gr_assoc` for one density. -/
structure Data (l : ℕ) where
  n : ℕ
  comp : Fin l → ℕ
  grp : Fin l → ℕ
  site : Fin l → ℕ
  ν : ℕ → ℕ → ℝ
  nk : ℕ → ℕ → ℝ
  ε : ℕ → ℕ → ℕ → ℕ → ℝ
  vol : ℝ → Vol ℝ
  gr : ℝ → ℝ → List (Option ℝ) → Except PyErr (ℕ → ℕ → ℝ)

variable {l : ℕ}

/-- saft.py:425-446: the arguments of `_calc_Xika_wrap`.  NaN in the composition reads as zero. -/
noncomputable def sites (A : Data l) (T : ℝ) (xi : List (Option ℝ)) : Sites ℝ l where
  comp := A.comp
  grp := A.grp
  site := A.site
  x := fun i => (xi[i]?.join).getD 0
  ν := A.ν
  nk := A.nk
  F := fun k m a b => mayer (A.ε k m a b) T
  vol := A.vol T

/-- saft.py:461-467: the energy at one density from the fractions of unbonded sites. -/
noncomputable def energy (S : Sites ℝ l) (X : Fin l → ℝ) : Ext ℝ :=
  extSum (List.ofFn fun s => if S.nk (S.grp s) (S.site s) ≠ 0 then
    Ext.mul (.fin (S.x (S.comp s) * S.ν (S.comp s) (S.grp s) * S.nk (S.grp s) (S.site s)))
      (Ext.add (extLog (.fin (X s))) (.fin ((1 - X s) / 2)))
    else .fin 0)

/-- saft.py:395-476 `Aassoc` when `flag_assoc` is set, with the python version of `calc_Xika`.  A vanishing denominator in the
iteration, which gives an infinite fraction in numpy, gives zero here. -/
noncomputable def aassoc (A : Data l) : Contribution := fun ρs T xi =>
  if xi.length ≠ A.n then .error .valueError
  else do
    let r ← density (.vec (ρs.map some))
    let g ← r.mapM fun ρ => A.gr ρ T xi
    .ok ((calcXika (sites A T xi) moleculePerNm3 (r.zip g)).map fun q => energy (sites A T xi) q.1)

/-- gamma_mie.py:1305-1353 `calc_gr_assoc` for one density, as an array that is read with component numbers. -/
noncomputable def mieGr {n m : ℕ} (P : MieTerms.Mie n m) (ktype : String) (ρ T : ℝ) (xi : List (Option ℝ)) :
    Except PyErr (ℕ → ℕ → ℝ) := do
  let g ← AssocIntegral.calcGr moleculePerNm3 P ρ T (DensityReach.fractions xi) ktype
  .ok fun i j => if h : i < n ∧ j < n then g ⟨i, h.1⟩ ⟨j, h.2⟩ else 0

end Verif.AssocContribution
