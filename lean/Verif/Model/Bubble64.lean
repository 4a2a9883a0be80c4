import Verif.Model.Equilibrium64
import Verif.Model.Fugacity64

/-!
# The equilibrium objective of the Peng-Robinson equation in double precision

The fugacity coefficients of two phases (`Verif.Fugacity64`) in `equilibrium_objective` and `calc_new_mole_fractions`
(`Verif.Equilibrium64`).  The densities of the phases are arguments; their search is not part of it.
-/

namespace Verif.Bubble64
open Verif Verif.Binary64 Verif.Mixing64

variable {n : ℕ}

/-- peng_robinson.py:231-295 `fugacity_coefficient`: the array of the coefficients. -/
def phis (sq lg ex : ℚ → ℚ) (R T : ℚ) (p : Par n) (x : Fin n → ℚ) (P ρ : ℚ) : List ℚ :=
  List.ofFn fun i => Fugacity64.phi sq lg ex R T p x P ρ i

/-- calc.py:2913 and 2971: `equilibrium_objective` of a phase with fractions `x` and density `ρ` and another one with `y` and
`ρ'`. -/
def objective (sq lg ex : ℚ → ℚ) (R T : ℚ) (p : Par n) (P : ℚ) (x : Fin n → ℚ) (ρ : ℚ) (y : Fin n → ℚ) (ρ' : ℚ) : Except PyErr ℚ :=
  Equilibrium64.objective (List.ofFn x) (phis sq lg ex R T p x P ρ) (phis sq lg ex R T p y P ρ')

/-- calc.py:2161-2163 and 2354-2356: `calc_new_mole_fractions` for the other phase, whose fractions were `y`. -/
def newFractions (sq lg ex : ℚ → ℚ) (R T : ℚ) (p : Par n) (P : ℚ) (x : Fin n → ℚ) (ρ : ℚ) (y : Fin n → ℚ) (ρ' : ℚ) :
    Except PyErr (List ℚ) :=
  Equilibrium64.newFractions (List.ofFn x) (phis sq lg ex R T p x P ρ) (phis sq lg ex R T p y P ρ')

end Verif.Bubble64
