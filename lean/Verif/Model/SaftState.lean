import Mathlib.Data.Real.Basic
import Verif.Model.GammaMie

/-!
# Cached state of the SAFT objects

`despasito/equations_of_state/saft/gamma_mie.py`, `gamma_sw.py` and `saft.py`: what is computed when
an object is built, when it is evaluated and when its parameters are refreshed after a change.

The functions that compute the cached arrays are parameters (`MieOps`, `SwOps`, `AssocOps`); what is
modelled is which array is recomputed when, and from what.  All of them are total here: an exception
raised while recomputing is not modelled.  The group dictionaries inside `bead_library` are shared
between the outer object and its source (eos_toolbox.py:233 copies only the outer dictionary), so a
changed parameter is visible to the source at once; only arrays derived from it wait for the refresh.
-/

namespace Verif.SaftState

/-- What happens to an object during its life: it is evaluated at a temperature and composition, a
parameter is changed in the library (interface.py `update_parameter`), or `parameter_refresh` is
called. gamma_mie.py:1446-1609, gamma_sw.py:866-988. -/
inductive Event (Lib Temp Comp : Type) where
  | eval (t : Temp) (x : Comp)
  | update (f : Lib → Lib)
  | refresh

section Mie

/-- The functions with which the Mie source fills its dictionary: `sk` shape factors, `kl` the
cross-interaction matrices from the library, the combining rules, the temperature stored in them and
whether additional outputs have been switched off; `avg` the component averages, `al` the prefactors
`Ckl`/`alphakl`, `dia` the hard-sphere matrices `dkl`/`x0kl`, `chain` the pair `dii_eff`/`x0ii`,
`comp` the pair `Cmol2seg`/`xskl`; `tdep` tells whether a combining rule has a temperature.
Used in gamma_mie.py:184-280. -/
structure MieOps (Lib Rule Temp Comp Sk Kl Avg Al Dia Chain Seg : Type) where
  sk : Lib → Sk
  kl : Lib → Rule → Option Temp → Bool → Kl
  avg : Kl → Sk → Avg
  al : Kl → Al
  dia : Temp → Kl → Lib → Dia
  chain : Sk → Dia → Avg → Chain
  seg : Comp → Lib → Seg
  tdep : Rule → Bool
  t298 : Temp

/-- The attributes of a Mie source. Used in gamma_mie.py:184-280. -/
structure MieSt (Lib Rule Temp Comp Sk Kl Avg Al Dia Chain Seg : Type) where
  lib : Lib
  rule : Rule
  ruleT : Option Temp
  fixed : Bool
  T : Option Temp
  xi : Option Comp
  sk : Sk
  kl : Kl
  avg : Avg
  al : Al
  dia : Option Dia
  chain : Option Chain
  seg : Option Seg

variable {Lib Rule Temp Comp Sk Kl Avg Al Dia Chain Seg : Type}
variable [DecidableEq Temp] [DecidableEq Comp]

/-- gamma_mie.py:184-280 `SaftType.__init__`: no temperature and no composition yet. -/
def MieSt.init (o : MieOps Lib Rule Temp Comp Sk Kl Avg Al Dia Chain Seg) (lib : Lib) (r : Rule) :
    MieSt Lib Rule Temp Comp Sk Kl Avg Al Dia Chain Seg where
  lib := lib
  rule := r
  ruleT := none
  fixed := false
  T := none
  xi := none
  sk := o.sk lib
  kl := o.kl lib r none false
  avg := o.avg (o.kl lib r none false) (o.sk lib)
  al := o.al (o.kl lib r none false)
  dia := none
  chain := none
  seg := none

/-- gamma_mie.py:1577-1609: with a temperature in a combining rule, put the new temperature there and
recompute everything that follows from the cross-interaction matrices. -/
def MieSt.rules (o : MieOps Lib Rule Temp Comp Sk Kl Avg Al Dia Chain Seg) (t : Temp)
    (s : MieSt Lib Rule Temp Comp Sk Kl Avg Al Dia Chain Seg) :
    MieSt Lib Rule Temp Comp Sk Kl Avg Al Dia Chain Seg :=
  if o.tdep s.rule then
    { s with
      ruleT := some t
      fixed := true
      kl := o.kl s.lib s.rule (some t) true
      al := o.al (o.kl s.lib s.rule (some t) true)
      avg := o.avg (o.kl s.lib s.rule (some t) true) s.sk }
  else s

/-- gamma_mie.py:1611-1618 and 1653-1701: the hard-sphere matrices, and from them the chain arrays. -/
def MieSt.diameters (o : MieOps Lib Rule Temp Comp Sk Kl Avg Al Dia Chain Seg) (t : Temp)
    (s : MieSt Lib Rule Temp Comp Sk Kl Avg Al Dia Chain Seg) :
    MieSt Lib Rule Temp Comp Sk Kl Avg Al Dia Chain Seg :=
  { s with
    dia := some (o.dia t s.kl s.lib)
    chain := some (o.chain s.sk (o.dia t s.kl s.lib) s.avg) }

/-- gamma_mie.py:1549-1618 `_check_temperature_dependent_parameters`. -/
def MieSt.checkT (o : MieOps Lib Rule Temp Comp Sk Kl Avg Al Dia Chain Seg) (t : Temp)
    (s : MieSt Lib Rule Temp Comp Sk Kl Avg Al Dia Chain Seg) :
    MieSt Lib Rule Temp Comp Sk Kl Avg Al Dia Chain Seg :=
  if s.T = some t then s else (({ s with T := some t }).rules o t).diameters o t

/-- gamma_mie.py:1620-1651 `_check_composition_dependent_parameters`. -/
def MieSt.checkX (o : MieOps Lib Rule Temp Comp Sk Kl Avg Al Dia Chain Seg) (x : Comp)
    (s : MieSt Lib Rule Temp Comp Sk Kl Avg Al Dia Chain Seg) :
    MieSt Lib Rule Temp Comp Sk Kl Avg Al Dia Chain Seg :=
  if s.xi = some x then s else { s with seg := some (o.seg x s.lib), xi := some x }

/-- gamma_mie.py:693-695, 1134-1136, 1181-1182 and 1334-1336: every evaluation begins with the two
checks. -/
def MieSt.eval (o : MieOps Lib Rule Temp Comp Sk Kl Avg Al Dia Chain Seg) (t : Temp) (x : Comp)
    (s : MieSt Lib Rule Temp Comp Sk Kl Avg Al Dia Chain Seg) :
    MieSt Lib Rule Temp Comp Sk Kl Avg Al Dia Chain Seg :=
  (s.checkT o t).checkX o x

/-- gamma_mie.py:1481-1492: the shape factors and cross-interaction matrices in a refresh. -/
def MieSt.matrices (o : MieOps Lib Rule Temp Comp Sk Kl Avg Al Dia Chain Seg)
    (s : MieSt Lib Rule Temp Comp Sk Kl Avg Al Dia Chain Seg) :
    MieSt Lib Rule Temp Comp Sk Kl Avg Al Dia Chain Seg :=
  { s with sk := o.sk s.lib, kl := o.kl s.lib s.rule s.ruleT s.fixed }

/-- gamma_mie.py:1500-1514: the averages, the composition arrays and the prefactors in a refresh. -/
def MieSt.finish (o : MieOps Lib Rule Temp Comp Sk Kl Avg Al Dia Chain Seg)
    (s : MieSt Lib Rule Temp Comp Sk Kl Avg Al Dia Chain Seg) :
    MieSt Lib Rule Temp Comp Sk Kl Avg Al Dia Chain Seg :=
  { s with
    avg := o.avg s.kl s.sk
    seg := match s.xi with
      | some x => some (o.seg x s.lib)
      | none => s.seg
    al := o.al s.kl }

/-- gamma_mie.py:1446-1514 `parameter_refresh`: the check of the temperature is called with the
temperature the object already has, or with 298 if it has none. -/
def MieSt.refresh (o : MieOps Lib Rule Temp Comp Sk Kl Avg Al Dia Chain Seg)
    (s : MieSt Lib Rule Temp Comp Sk Kl Avg Al Dia Chain Seg) :
    MieSt Lib Rule Temp Comp Sk Kl Avg Al Dia Chain Seg :=
  ((s.matrices o).checkT o (s.T.getD o.t298)).finish o

/-- One event in the life of a Mie source. gamma_mie.py:1446-1609. -/
def MieSt.step (o : MieOps Lib Rule Temp Comp Sk Kl Avg Al Dia Chain Seg)
    (s : MieSt Lib Rule Temp Comp Sk Kl Avg Al Dia Chain Seg) :
    Event Lib Temp Comp → MieSt Lib Rule Temp Comp Sk Kl Avg Al Dia Chain Seg
  | .eval t x => s.eval o t x
  | .update f => { s with lib := f s.lib }
  | .refresh => s.refresh o

/-- saft.py:282-285: an object built with other combining rules is first built with the default ones,
then given the others and refreshed. -/
def MieSt.custom (o : MieOps Lib Rule Temp Comp Sk Kl Avg Al Dia Chain Seg) (lib : Lib) (r₀ r : Rule) :
    MieSt Lib Rule Temp Comp Sk Kl Avg Al Dia Chain Seg :=
  ({ MieSt.init o lib r₀ with rule := r }).refresh o

/-- What an evaluation reads: gamma_mie.py:334-1444 use these entries of the dictionary only. -/
def MieSt.view (s : MieSt Lib Rule Temp Comp Sk Kl Avg Al Dia Chain Seg) :
    Sk × Kl × Avg × Al × Option Dia × Option Chain × Option Seg :=
  (s.sk, s.kl, s.avg, s.al, s.dia, s.chain, s.seg)

end Mie

section Sw

/-- The functions with which the square-well source fills its dictionary. Used in gamma_sw.py:143-235. -/
structure SwOps (Lib Rule Comp Sk Kl Avg Al Seg : Type) where
  sk : Lib → Sk
  kl : Lib → Rule → Kl
  avg : Kl → Sk → Avg
  al : Kl → Al
  seg : Comp → Lib → Seg

/-- The attributes of a square-well source. Used in gamma_sw.py:143-235. -/
structure SwSt (Lib Rule Comp Sk Kl Avg Al Seg : Type) where
  lib : Lib
  rule : Rule
  xi : Option Comp
  sk : Sk
  kl : Kl
  avg : Avg
  al : Al
  seg : Option Seg

variable {Lib Rule Temp Comp Sk Kl Avg Al Seg : Type} [DecidableEq Comp]

/-- gamma_sw.py:143-235 `SaftType.__init__`. -/
def SwSt.init (o : SwOps Lib Rule Comp Sk Kl Avg Al Seg) (lib : Lib) (r : Rule) :
    SwSt Lib Rule Comp Sk Kl Avg Al Seg where
  lib := lib
  rule := r
  xi := none
  sk := o.sk lib
  kl := o.kl lib r
  avg := o.avg (o.kl lib r) (o.sk lib)
  al := o.al (o.kl lib r)
  seg := none

/-- gamma_sw.py:958-988 `_check_composition_dependent_parameters`; every evaluation begins with it. -/
def SwSt.eval (o : SwOps Lib Rule Comp Sk Kl Avg Al Seg) (x : Comp)
    (s : SwSt Lib Rule Comp Sk Kl Avg Al Seg) : SwSt Lib Rule Comp Sk Kl Avg Al Seg :=
  if s.xi = some x then s else { s with seg := some (o.seg x s.lib), xi := some x }

/-- gamma_sw.py:866-924 `parameter_refresh`. -/
def SwSt.refresh (o : SwOps Lib Rule Comp Sk Kl Avg Al Seg)
    (s : SwSt Lib Rule Comp Sk Kl Avg Al Seg) : SwSt Lib Rule Comp Sk Kl Avg Al Seg :=
  { s with
    sk := o.sk s.lib
    kl := o.kl s.lib s.rule
    avg := o.avg (o.kl s.lib s.rule) (o.sk s.lib)
    seg := match s.xi with
      | some x => some (o.seg x s.lib)
      | none => s.seg
    al := o.al (o.kl s.lib s.rule) }

/-- One event in the life of a square-well source. gamma_sw.py:866-988. -/
def SwSt.step (o : SwOps Lib Rule Comp Sk Kl Avg Al Seg) (s : SwSt Lib Rule Comp Sk Kl Avg Al Seg) :
    Event Lib Temp Comp → SwSt Lib Rule Comp Sk Kl Avg Al Seg
  | .eval _ x => s.eval o x
  | .update f => { s with lib := f s.lib }
  | .refresh => s.refresh o

/-- saft.py:282-285 with the square-well source. -/
def SwSt.custom (o : SwOps Lib Rule Comp Sk Kl Avg Al Seg) (lib : Lib) (r₀ r : Rule) :
    SwSt Lib Rule Comp Sk Kl Avg Al Seg :=
  ({ SwSt.init o lib r₀ with rule := r }).refresh o

/-- What an evaluation reads: gamma_sw.py:291-864 use these entries of the dictionary only. -/
def SwSt.view (s : SwSt Lib Rule Comp Sk Kl Avg Al Seg) : Sk × Kl × Avg × Al × Option Seg :=
  (s.sk, s.kl, s.avg, s.al, s.seg)

end Sw

section Assoc

/-- The functions used for association: `mats` (Aassoc.py:179-474 `calc_assoc_matrices`), whether all
energies vanish, whether cutoff distances (rather than bonding volumes) are given, and the bonding
volume (`calc_Kijklab`) at a temperature, for the distances of the source. -/
structure AssocOps (Lib Temp Dist Mats Vol : Type) where
  mats : Lib → Mats
  zero : Mats → Bool
  useRc : Mats → Bool
  vol : Temp → Dist → Mats → Vol

/-- The association attributes of the outer object; `sites` says whether any group has sites.
Used in saft.py:263-280. -/
structure AssocSt (Lib Temp Mats Vol : Type) where
  lib : Lib
  flag : Bool
  mats : Mats
  T : Option Temp
  vol : Option Vol

/-- Like `Event`, with the distances of the source at the time of the evaluation. saft.py:417-442 and 624-675. -/
inductive AEvent (Lib Temp Dist : Type) where
  | eval (t : Temp) (d : Dist)
  | update (f : Lib → Lib)
  | refresh

variable {Lib Temp Dist Mats Vol : Type} [DecidableEq Temp]

/-- saft.py:263-280 in `EosType.__init__`. -/
def AssocSt.init (o : AssocOps Lib Temp Dist Mats Vol) (sites : Bool) (lib : Lib) :
    AssocSt Lib Temp Mats Vol where
  lib := lib
  flag := sites && !o.zero (o.mats lib)
  mats := o.mats lib
  T := none
  vol := none

/-- saft.py:417-442 in `Aassoc` (called only with `flag_assoc`, saft.py:323-324): the new state, and
the matrices and bonding volumes the contribution is computed from, `none` if there is none. -/
def AssocSt.eval (o : AssocOps Lib Temp Dist Mats Vol) (t : Temp) (d : Dist)
    (s : AssocSt Lib Temp Mats Vol) : AssocSt Lib Temp Mats Vol × Option (Mats × Option Vol) :=
  if s.flag then
    if o.useRc s.mats then
      if s.vol.isNone ∨ s.T ≠ some t then
        ({ s with vol := some (o.vol t d s.mats), T := some t },
          some (s.mats, some (o.vol t d s.mats)))
      else (s, some (s.mats, s.vol))
    else (s, some (s.mats, none))
  else (s, none)

/-- saft.py:663-675 in `parameter_refresh`. -/
def AssocSt.refresh (o : AssocOps Lib Temp Dist Mats Vol) (s : AssocSt Lib Temp Mats Vol) :
    AssocSt Lib Temp Mats Vol :=
  if s.flag then { s with mats := o.mats s.lib } else s

/-- One event in the life of the outer object. saft.py:417-442 and 624-675. -/
def AssocSt.step (o : AssocOps Lib Temp Dist Mats Vol) (s : AssocSt Lib Temp Mats Vol) :
    AEvent Lib Temp Dist → AssocSt Lib Temp Mats Vol
  | .eval t d => (s.eval o t d).1
  | .update f => { s with lib := f s.lib }
  | .refresh => s.refresh o

end Assoc

end Verif.SaftState
