# Formal model of despasito: design

The code under study is `/repo/despasito` (python). The model is Lean 4 under
`lean/Verif/`. Nothing of the code is run: the tie between model and code is the
citation on every definition (file and lines) and re-reading.

## Layout

| directory | content |
|---|---|
| `lean/Verif/Basic/` | shared vocabulary: python exceptions as values, finite dictionaries, partial numbers (NaN) |
| `lean/Verif/Model/` | definitions modelling the code, each citing file and lines |
| `lean/Verif/Spec/` | small specifications, written without reference to the model's helpers |
| `lean/Verif/Proofs/` | helper lemmas |
| `lean/Verif/Props/` | the property theorems (named in `MANIFEST.json`), with non-vacuity examples beside them |

## Conventions

* A python exception is a value: `Except PyErr α`; an unbound local variable is the
  error `PyErr.unbound`, a wrong index `PyErr.index`, and so on.
* Dictionaries are association lists or functions with finite support; insertion order is
  kept only where the code observes it.
* Floating point numbers are modelled by an ordered field (`ℚ` where computation is
  wanted, `ℝ` where roots, exponentials or derivatives are needed). Rounding, overflow
  and underflow are *not* modelled. NaN is modelled explicitly (`none`, or a constructor)
  wherever the code tests for it or the property mentions it.
* External solvers (scipy) and the equation of state, where a property does not depend on
  them, are parameters of the model: arbitrary functions, so theorems hold for all of them.
* When the code violates a property, the property is kept as users expect it, its negation
  is proved for the model with a concrete witness (`..._violated`), and the strongest true part is
  proved with the suffix `_partial`. All of these are listed under "Disagreements".

## Per-property plan

C01, C02 (`check_length_dict`, `set_defaults`): values are `scalar`/`array (List α)`; full
functional models over association lists; characterisation theorem by case analysis and
induction over the key list.

C03 (`solve_root`): the part before dispatch is a pure decision function from
(method, guess shape, bounds shape) to an error or a solver tag. Full decision analysis.

C04 (`central_difference`): list model over a field, exact for quadratics by `field_simp`;
convergence over `ℝ` from `HasDerivAt`.

C05 (`pool_job`, `serial_job`): pool execution as an arbitrary completion schedule (permutation) with results
slotted by index; both return the transpose; equality for rectangular results; the edge case of an
empty batch is covered.

C06 (`process_bead_data`), C07 (`extract_calc_data`): functional models over lists of pairs.

C08 (`cross_interaction_from_dict`), C09 (rules), C10 (`calc_massi`), C49, C50: functional
models; rules over `ℝ` with `rpow`/`sqrt`.

C11, C12 (`EosTemplate`): `check_bounds` over a linear order; update/guess as a state machine over two
nested dictionaries, refinement to a map on unordered pairs.

C13 (Peng–Robinson refresh): state machine with library and caches; histories are lists of operations.

C14–C16: formulas over `ℝ`; denominators, cubic in Z, derivative of ln φ, permutation invariance by `Finset`/`Multiset` sums.

C17–C20 (SAFT toolbox): sums over lists / `Finset`, `HasDerivAt` for the derivative identities.

C21–C25 (association): iteration as fold with invariants; four-index array as function updated by a sequence of writes; symmetric-write invariant.

C26–C28 (SAFT caches): state machine with abstract (arbitrary) dependence functions; coherence invariant; witness for the stale states.

C29 (`_check_density`): decision function.

C30–C34 (`calc.py`): algebra over an ordered field, decision trees of the density search with the isotherm as an arbitrary input.

C35–C38 (drivers): per-point function arbitrary, failing or not; the shared option dictionary is threaded as state.

C39–C47 (fitting): numbers extended with NaN and infinity as an explicit type; data sets are arbitrary.

C48: decision tables.

## Trusted base

* Lean 4.33.0's kernel, and Mathlib's definitions of `ℝ`, `exp`, `log`, `rpow`, `HasDerivAt`.
* Axioms: at most `propext`, `Classical.choice`, `Quot.sound` (checked with `#print axioms`).
* The reading of the python source into Lean: citations on each definition.
* Real arithmetic in place of IEEE arithmetic.

<!-- generated below -->

## Plan, continued: properties added as the model grew

C51 (`solve_root` bounds for minimisers), C52 (`process_param_fit_inputs`), C53 (`combining_rules` with a
temperature), C54 (`extract_property`), C55 (`guess_parameters`): functional models, decision analysis.

C56, C57, C61 (component averages, maximum densities): sums over lists; a mixture listed with a component split in
two compared with the original; witnesses over `ℚ`.

C58–C60 (Mie prefactor, square-well derivatives, effective diameter): `ℝ` with `rpow`, `HasDerivAt`, and the
quadrature as a finite positive combination.

C62–C64 (association solve): contraction argument for the damped map; `ℝ`.

C65–C67 (association matrices): the nested loops as folds over explicit state, lookups as partial functions.

C68, C70 (flash): the loop as fuel-bounded recursion over a state record; the fugacity routines are arbitrary.

C71, C72 (batches, bubble and dew points): per-point jobs with arbitrary inner solvers.

C73 (objective), C74, C78, C80–C82 (data classes): dictionaries with values of an explicit union type; one model
of the constructor for each class.

C75, C76, C79, C88 (fitting input): state threading of the caller's dictionaries; strings as lists of characters.

C77, C83 (global methods): option dictionaries; grid as list product.

C84–C87 (entry points): decision tables, string splitting, tables as lists of columns.

C89–C93 (pressure-volume curve, saturation): recursion on the number of points; splines and minimisers as parameters.

C94–C97 (phase compositions): fuel-bounded loops over state records; results of the minimisers are arbitrary.

C98, C99 (pressure range): two loops over a state of limits and objectives; invariants on the signs of the objective;
for the limits a congruence: phase calculations that agree between the limits give the same search.

C100 (labels of the flash): decision analysis.

C101, C102 (pressure range of dew points): the same with the roles of the phases exchanged.

C103–C105 (SAFT energy, pressure, fugacity): numpy scalars over the reals; contributions are arbitrary; mean value
theorem for difference quotients, chain rule for the Gibbs relation.

C106 (initial guesses): lists of optional numbers, NaN as absence.

C107–C109 (association energy, combining rules, contact values): functionals over the reals with `HasDerivAt`;
lookups as partial functions.

C110–C113 (consistency tests, activity): the fugacity coefficients are an arbitrary procedure, the two families of
equations of state are put in; exact residuals, limits with the step.

C114 (solubility parameter): composition with the model of the pressure-volume curve; filter and spline are parameters.

C115–C121 (Mie terms): the perturbation sums over finite types of groups and components; scaling by congruence of every
intermediate, limits by continuity at zero density, permutations by reindexing of sums.

C122–C125 (square-well terms): as for the Mie terms; the virial coefficient by comparison of the slopes of the three terms
with the integral over the pair potential; several names for one group or component as a map between finite types, sums
collected over its fibres.

C126, C127 (association integral): the table as rational numbers; positivity over a rectangle of states by a test that
expands the polynomial around the centre of a cell and halves cells, proved sound and evaluated by the kernel.

C69 (sum of mole fractions): rounding to double precision as a function on the rationals; numpy's order of summation;
induction over rounded additions; witnesses by evaluation.

C128 (compiled association solves): the numba copy with its counters, reduced to the python formula by
induction over the loops; the cython copy as a separate iteration that can raise; the witness is run on
integers.

C134 (phases in equilibrium): the bubble point put together from the search of the range, the inner loop and the
objective; the last evaluation of the objective gives the state, the sources of C94 give the composition, and a
Lipschitz bound of the mole numbers carries the tolerance of the inner loop to the fugacities; witnesses are runs
of the whole calculation on rational numbers.

C135 (critical point): the isotherm in reduced form; its slope has a double root at the root of a cubic, whose value is
enclosed between rational numbers; monotone below the critical ratio by writing the slope as a square times a positive
factor, and a point of negative slope above it; densities by the intermediate value theorem.

C136 (saturation state): the reduced fugacity has the slope of the pressure over the packing as derivative, so the difference
between liquid and vapour falls with the pressure and is Lipschitz; it is positive at the lower and negative at the upper end,
by the sign of the area under a hump and over a dip; any other pair of densities is excluded by the same signs.

C137 (density search): shapes of isotherms (rising, or rising-falling-rising) decide roots, extrema and signs of the error on
the bracket; the cubic equation of state has one of the two shapes by C135; near the critical point by continuity in the
attraction all three densities lie in one bracket.
C138 (data-set evaluation): the table of predictions and the columns of the measured values are both computed to explicit lists
(C79, C80), so that the objective is an equation of lists; the violations are evaluations.
C139 (histories of a fit): the calculation is an arbitrary process that asks the equation of state one question after the
other, so that equality of the first answer and state gives equality of all; the violations are invariants (the stored
temperature and diameters are not changed by any later evaluation).
C140 (options of the global methods): the loops over the options are reduced to lookups, so that the arguments are given key
by key; the order of the pool and the number of workers is kept as an assumption that `fit` is proved to meet.
C141 (a run): the log files are a dictionary from names to messages; conservation of the messages of each process by induction on
the jobs, with the loop over the files characterised first; the run is followed branch by branch.
C142 (rows to table): a table is described by a list of keys, shapes and cells; one theorem computes the file from this list, and the
calculation types are instances of it. Violations by a mixed column, or by a column of another length.
C143 (activity coefficients): the rows are taken apart branch by branch; for dew points in a new process the coefficients are computed.
C144 (a fit): fit is followed branch by branch up to the call of the global method; bounds and settings from the theorems of C43, C75.
C145 (combining rules): the dispatch is evaluated name by name; the matrices come from the theorems of C08, whose loop is described by the
pairs for which a rule can be evaluated.
C146 (central differences in double precision): each rounding has a relative error of 2^-53; the truncation by integrating a bound of the third derivative three times; numbers by linear arithmetic; violations by evaluating the doubles.
C147 (matrices of a whole run): the nested loops are one pass over a list of pairs of sites; what a pass writes by induction over the list; the second pass fills entries that are zero, and never those of a site with itself.
C148 (exported libraries): the stable sort by induction (permutation, order, order of equal names); uniqueness of a sorted permutation with distinct keys; violations by evaluation.
C149 (shared weights): the renaming is undone by nothing and done only once; the filled weights are characterised key by key (C01, C02), then the second construction is compared with the first.
C150 (Mie effective packing): the polynomial is bounded by Bernstein certificates on rectangles (coefficients positive in the distances from the sides); the pole by the intermediate value theorem.
C151 (square-well effective packing): the same method; the energy follows for groups of one diameter and one range.
C152 (square-well contact value): linear in depth over temperature; at twice the temperature a tangent of the hard-sphere value and of the fourth power leave a polynomial with Bernstein certificates on seven rectangles.
C153 (sign of the second order): factors as polynomials with Bernstein certificates on rectangles; for the 18-6 fluid the bracket is a polynomial in the contact distance, positive from one on.
C154 (hard spheres resist compression): cancel the density, bound the logarithm by z/(1-z), monotone by the BMCSL derivative; the two packing fractions differ by a sum of (d_k + d_l)(d_k - d_l)^2.
C155 (attraction lowers the energy): for Lennard-Jones groups bound the quadrature of the diameter by rational sums, the contact values by polynomials, and certify the brackets on rectangles; the third order has the sign of one fitted cubic.
C156 (heating along the saturation line): vapour and liquid are the two lowest points of the Gibbs energy at the saturation pressure; adding the inequalities of two states gives one about the difference of the two energies, which has a single minimum.
C157 (heating): each alpha falls with the temperature until its zero, hence the attraction of the mixture falls; the repulsion grows; at constant pressure the intermediate value theorem moves the lowest and the highest density.
C158 (objectives of a pure fluid): the difference of the logarithms of the fugacity coefficients of the outer densities falls strictly with the pressure (from the area between isotherm and pressure) and is zero at saturation; the objective is its exponential minus one. With one root the two densities coincide.
C159 (ideal gas): flag 4 means no root (or an exception); a continuous curve without root stays on one side of the pressure; the intermediate value theorem gives the vapour below the curve; the closed form of the coefficients is bounded term by term at low density.
C160 (constant coefficients): every trial gives the same mole numbers, so the second trial is the answer; at most one detour for a trivial solution; then the sum and the smallest fraction do not change any more and the loop ends.
C161 (ideal flash): the constraint leaves admissible K-values alone (c32_default), so each step either converges, restarts at (2^26, 2^-26) or moves to the constant K-values, from which the next step converges with error zero.
C162 (falling objective): induction on the number of factors that separate the pressure from the bubble pressure, for the first loop downwards and for the second upwards; the objective falls, so the check for a well never fires. No range at an azeotrope: every path to a found range passes the comparison of the compositions.
C163 (rising objective): the same upwards; downwards both ends of the range and the pressure stay equal, an invariant of the first loop.
C164 (ideal points): the objective does not depend on the guess, so a run of the root finder on the stateful objective is its run on a function; enclosing a change of sign of this function means enclosing Raoult's pressure. The range comes from C162 and C163.
C165 (ideal activity coefficients): a row of a bubble or dew point that is not a failed one comes from a calculation that ended; C164 and C161 give its phases, and the quotient y P / (x Psat) is the pressure over Raoult's pressure for every component.
C166 (spline errors): the area below the spline is compared with that below the isotherm lowered or raised by epsilon; moving an end of the integral to the root of the shifted isotherm changes the area in one direction only, or by two epsilon times the change of the volume; C136 says how fast the area falls with the pressure.
C167 (density accuracy): a continuous spline within epsilon has a root on each branch by the intermediate value theorem, so with three roots the first and the third are estimates of liquid and vapour; monotonicity puts them within one percent of the density, the bracket then changes sign and contains no other density.
C168 (rounding of the pressure): every operation of the expression is rounded; relative errors of products and quotients of positive numbers add up, the difference from one costs a factor of a hundred at 99 percent packing, and the last subtraction is bounded against the sum of its terms.
C169 (rounding in the flash): rounding is monotone, so that a quotient below one stays below it; relative errors of the quotient, absolute error of the complement, and the division by the sum; violations by evaluating the doubles.
C170 (rounding of the objective): two roundings for each share, one for each addition in numpy's order (the relation of C69), Bernoulli's inequality for the powers, and one for the subtraction.
C171 (rounding of the grid): the entries of np.arange and np.linspace are within a few roundings of multiples of the rounded step, so that neighbours are 0.99 steps apart; relative distances survive inversion up to 1e-15; the parts are joined and the extension proved by induction.
C172 (condensation of square wells): the energy is a hard-sphere part plus A/T plus B/T^2 with A and B analytic in the density; the compressibility of the hard spheres grows at least like the density, so the Lipschitz constants of A and B are beaten at high T; at low T the sign of B's slope at small densities decides; for long ranges the mean value theorem between half of the first pole and a point just before it gives a steep fall.
C173 (rounding in the mixing rules): the correctly rounded square root is bracketed through the integer square root of the scaled argument; errors are counted as powers of one plus or minus a unit, which multiply along products, halve under roots and survive sums of positive doubles; the pressure is then compared through the quotient rule for relative errors.
C174 (rounding from the critical constants): the products and quotients are counted in roundings as in C173; the number under the square in alpha has a bounded absolute error, hence a bounded relative one where it is at least one half; the rounded square root is monotone because its last place only grows and the integer nearest to the scaled root is monotone; relative changes of all a alpha carry over to the double sum.
C175 (rounding in the fitting objective): two different doubles differ by at least 2^-54 of either, since both are multiples of half the last place of one of them; so deviations are zero or large enough to square without underflow, and errors are counted in roundings as in C173. Monotony follows from that of rounding, through numpy's eight accumulators.
C176 (rounding in the fugacity coefficients): sums and products of positive numbers are counted in roundings as in C173; where terms are subtracted, errors are measured against the sum of the sizes of the terms (`Err`), which is closed under the operations; up to 98 % of the densest packing Z + B is at most 99 (Z - B), so the logarithm loses two digits at most.
C177 (rounding in the equilibrium objective): the relative errors of the coefficients from C176 through the quotients and the sum, with the errors of the operations themselves from C170.
C178 (reach of the searches): the largest density is proportional to the packing fraction, so the guards are compared as numbers; the refusal of the monomer term is carried through the residual energy, the energy and the difference quotient to the pressure, and from there through the branches of the searches.
C179 (window of the isotherm): the steps of the volume are large up to the 45th point whatever the largest density, so the length of the default grid is an explicit sum of two ceilings and the isotherm exists if and only if the sum is at most a million; for other options the first step of the grid is large, so the grid in the volume runs from at most the inverse increment to the inverse of the lowest density; its length is a quotient that is compared with the allowed one. Acceptance from C89 with a convex bound on the number of points.
C180 (negative association strengths): with factors adding up to at least -1/4 the map sends [1/2, 2) into (1, 2), so every iterate is above one; below -1/4 the smallest fraction m of a solution would satisfy m(1 - a m) >= 1, which is impossible; with the factor -1 the map has period three. The negative factors come from C127.
C181 (association contribution): the fractions are close to the solution (C62), the logarithm is Lipschitz above the lower bound of the fractions, and the pressure of one density needs the energies at the two densities of the stencil only, so that it equals the one with a contribution that is computed density by density and has these values (C104).
C181 (strong association): the iteration with a rational factor runs on numerators and denominators and is evaluated by the kernel at both densities of the stencil; bounds of the exact fractions come from the quadratic equation and of the logarithms from log x <= x - 1.
C182 (plot data): the sorted list without duplicates is strictly increasing; the index that is found is the first one; a strictly increasing list is determined by its members, which gives idempotence.
C62, C181 (weak bonds): below the damping threshold every step contracts the factor between the fractions and the solution by S/(1+S), so that the residual is below the tolerance after 500 steps; the pressure bound of C181 then needs no assumption on convergence.
C62, C181 (14 of 15 sites bonded): one step contracts the excess over one of the factor between the fractions and the solution by the largest bonded fraction of the solution (an inequality between (1+a)^2 t and (1+at)(t+a)); a residual below the tolerance then bounds the factor itself, in two passes.

## What is modelled

| file | modelled | not modelled |
|---|---|---|
| `__init__.py`, `__main__.py`, `main.py` | logger set-up, verbosity, flags, data-set settings, output file name, the course of `run` | argument parsing itself, removal of an old main log |
| `equations_of_state/__init__.py` | `method_stat`, `initiate_eos` and what the constructors require | |
| `combining_rule_types.py` | all rules | |
| `cubic/peng_robinson.py` | all functions | `__str__` |
| `eos_toolbox.py` | insignificant components, masses, property extraction, bead checks, cross interactions, rule dispatch, partial derivatives | |
| `interface.py` (EOS) | guesses, bounds, updates | |
| `saft/Aassoc.py`, `compiled_modules/ext_Aassoc_python.py`, `ext_Aassoc_numba.py`, `ext_Aassoc_cython.pyx` | all; choice of implementation; both compiled copies | conversions of the arrays |
| `saft/gamma_mie.py`, `ext_gamma_mie_python.py`, `ext_gamma_mie_numba.py`, `ext_gamma_mie_cython.pyx` | hard spheres, effective averages, maximum density, all perturbation terms with their tables, contact values and their derivatives, chain term, guards, parameter refresh and caches, density check, correlation of the association integral | — |
| `saft/gamma_sw.py` | all terms of the energy, contact values, averages and their combining rules, guards, refresh | |
| `saft/saft.py`, `saft_toolbox.py` | state, refresh, bounds, density check, composition sums, diameters, ideal contribution, Helmholtz sum, pressure, fugacity coefficients, largest density | |
| `read_input.py`, `write_output.py` | input routing, bead data, data-set recognition, data files and data sets, files of keys and values, tables, export of libraries | number formatting, JSON text |
| `parameter_fitting/*` | bounds, guesses, constraints, objective, data classes and their evaluation, histories of evaluations, `fit` dispatch, grid search, basin hopping steps, options of the global methods, result files | scipy's global methods (parameters) |
| `thermodynamics/calc.py` | pressure-volume arrays, saturation search, density search, composition loops with their objectives, bisection and new guesses, pressure ranges of bubble and dew points, fugacity wrappers, new mole fractions, flash, K-value constraint, bubble and dew point drivers with their initial guesses, bubble and dew points as a whole, consistency tests, activity coefficients, solubility parameter, cleaning of plot data | plots |
| `thermodynamics/calculation_types.py`, `__init__.py` | all batch drivers, dispatch | log messages |
| `utils/*` | all computing functions, log files and levels of the process pool | the processes themselves |

External to the model (arbitrary parameters of it): scipy's solvers and optimisers, spline fits, the process pool's
scheduling, random numbers, the file system. Numbers are exact, except in `Model/Binary64.lean`, `Model/CentralDiff64.lean`, `Model/Pressure64.lean`, `Model/Flash64.lean`, `Model/Equilibrium64.lean`, `Model/PressureVolume64.lean`, `Model/Mixing64.lean`, `Model/Component64.lean`, `Model/Objective64.lean`, `Model/Fugacity64.lean` and `Model/Bubble64.lean`, where they are
rounded to double precision.

## Disagreements

Properties that the code as modelled does not have, each with the theorem or theorems proving it. The
rest of each property is proved by the other theorems listed in `MANIFEST.json`.

* **C03** Root-finder selection never dispatches to a solver whose prerequisites are missing. Holds with a guess and numeric bounds; fails for missing guess with minimisers, None end points, missing bounds, hybr_broyden1/2, and tuples of pairs (witnesses proved).
  (`c03_violated_no_guess`, `c03_violated_none_endpoint`, `c03_violated_no_bounds`, `c03_violated_no_branch`, `c03_violated_tuple_of_pairs`, `c03_violated_none_row`)
* **C05** Parallel and serial execution of a batch of points give the same results in the same order. Holds for rectangular results in which not all quantities are arrays of one length; the remaining case is violated by np.transpose of a 3-D array. No shipped calculation returns only arrays.
  (`c05_violated_all_vectors`, `c05_violated_exception_order`, `c05_violated_ragged`)
* **C06** Molecule definitions are turned into a faithful composition matrix. Violated when a molecule lists a group twice: the last count wins.
  (`c06_violated_repeated_group`)
* **C08** Cross-interaction parameter matrices are symmetric and respect explicitly given values. Symmetry and diagonal hold for every rule; entries are characterised for rules with a single output. A rule with several outputs overwrites an explicitly given cross value (witness proved).
  (`c08_violated_multi_output`)
* **C09** Combining rules are symmetric, idempotent and bounded by their arguments. Holds for all rules except that the Mie exponent rule is not idempotent for exponents below three.
  (`c09_violated_small_exponent`)
* **C12** A fitted parameter that was written is the parameter that is read back, and nothing else changes. Holds for every library that lists no pair in both orders; with both orders an accepted update is lost (witness proved).
  (`c12_violated_both_orders`, `c12_violated_no_fallthrough`)
* **C13** Cubic EOS: parameters refreshed after any history equal those of a freshly built EOS. Holds for all histories that do not update the acentric factor after kappa has been derived from it; violated there.
  (`c13_violated_omega`, `c13_violated_values`, `c13_violated_missing_tc`)
* **C19** Analytic density derivatives used in the chain term are the derivatives of the coded functions. Holds at every density below close packing for repulsive exponents up to 35.5, and for all exponents wherever the effective packing fractions are not one. Violated (proved): for an exponent from 72 on, the double of a repulsive exponent from 36 on, the first-order term has a pole below close packing.
  (`c19_violated_pole`)
* **C22** The association result at one density does not depend on the other densities in the array. The iteration for one density starts from the result at the previous density and runs at most 500 steps, so results depend on the other densities (witness proved). The first density of the array is always independent of the rest.
  (`c22_violated`)
* **C26** SAFT-γ-Mie: after updating parameters and refreshing, results equal those of a freshly built EOS. After a parameter update the temperature-dependent diameters keep their old values when the temperature did not change, or when the first temperature is 298 K (witnesses proved). Holds whenever the temperature differs from the stored one.
  (`c26_violated`, `c26_violated_298`)
* **C28** Association parameters changed during fitting take effect. Energies follow the library; bonding volumes and the flag that switches association on are computed once and stay stale after an update (witnesses proved).
  (`c28_violated_volume`, `c28_violated_switched_on`)
* **C29** Invalid densities are rejected before they reach the equation of state. Holds for scalars and one-dimensional arrays; two-dimensional arrays lose all rows but the first, so invalid values in later rows are accepted (witnesses proved).
  (`c29_violated_rows`, `c29_violated_nan_accepted`, `c29_violated_exceptions`)
* **C32** K-value constraint keeps the flash solvable. Different K-values that come out are always admissible, feasible limits are always met and without limits there is never a failure. Equal or NaN K-values stop with an undefined variable, and a first K-value of exactly one with an upper limit below one returns a pair of ones (both proved).
  (`c32_violated_equal`, `c32_violated_unit`)
* **C33** Density search returns a density together with a truthful phase flag. A returned flag always matches the presence of a density. The flag stays undefined exactly for one root with one extremum not below it; without a root the extrapolated vapour is never reached and an isotherm above the pressure is reported as a liquid (witnesses proved).
  (`c33_violated_no_vapor_without_root`, `c33_violated_liquid_without_root`, `c33_violated_undefined`)
* **C34** Fugacity coefficients of an ideal or failed phase are reported consistently. The failed phase always gives two coefficients; the liquid routine evaluates an ideal gas at a NaN density (both proved).
  (`c34_violated_length`, `c34_violated_liquid_ideal`)
* **C35** A failing point never disturbs the other points of a batch. Isolation is proved for the stateless jobs and the shape of failed rows for all. A failed point of the equation-of-state verification keeps its index but the row does not mark it, and a pure point above its critical temperature is reported with valid flags (both proved). Bubble and dew points depend on earlier ones, see C36 and C38.
  (`c35_violated_verify`, `c35_violated_pure`)
* **C36** Solver options apply to every point. A method inside the pressure options is used for the first mixture of a batch (or of each pool chunk) only, and the tolerance is overwritten by the first success (proved). A method given directly is used for every point.
  (`c36_violated_forgotten`, `c36_violated_method`, `c36_violated_tol`)
* **C37** Activity-coefficient mode is decided by what was supplied, and a given pressure is used. The mode table is proved; a supplied pressure is not used as the guess in the modes that need it (proved).
  (`c37_violated_guess`, `c37_violated_points`)
* **C38** Bubble and dew calculations do not depend on previous calculations. The starting composition is a module variable left by the previous calculation (witnesses proved). Pressure, solved composition and objective are history-free when the inner loop and range search do not depend on their guess.
  (`c38_violated`, `c38_violated_components`)
* **C39** Objective values seen by an optimiser are never NaN. Holds unless a data set returns minus infinity; then another infinite one makes the sum NaN (witness proved).
  (`c39_violated`)
* **C41** Objective of one data set: non-negative, zero exactly for a perfect match, insensitive to missing points. Proved for the three plain measures with non-zero references. Both Boltzmann-weighted measures give NaN for a perfect match, one is negative, a reference of zero counts as missing, and an unknown measure is not rejected without comparable points. The Boltzmann-weighted measures also raise when nothing can be compared and give NaN for a prediction that diverges, and a list with one weight raises IndexError (all proved).
  (`c41_violated_boltz`, `c41_violated_negative`, `c41_violated_zero_reference`, `c41_violated_unknown`, `c41_violated_short`, `c41_violated_boltz_nothing`, `c41_violated_boltz_infinite`)
* **C42** A perfect fit is the best fit. A perfect fit gets an infinite objective, proved for every data set of every class. Imperfect parts add up.
  (`c42_violated`, `c42_violated_witness`)
* **C43** Every fitted parameter has bounds, and user bounds are attached to the right parameter. Bounds are attached to the right parameter for keys of the documented form and distinct names. A setting whose name merely contains 'bounds' is lost, and of a parameter listed twice only the first gets the bounds (proved).
  (`c43_violated_setting`, `c43_violated_duplicate`)
* **C44** Valid constraint types are accepted and invalid ones rejected. Both type checks are inverted: no constraint is ever accepted as class, and as dictionary exactly the undocumented types are accepted (proved). Other malformed constraints are rejected.
  (`c44_violated_class`, `c44_violated_dict`, `c44_violated_names`)
* **C45** Grid minimisation returns the best grid result. Holds for two or more parameters and no NaN objective. A NaN in first place wins, one failing start ends a search over one parameter, and freezing exactly one dimension never works (all proved).
  (`c45_violated_nan`, `c45_violated_one_parameter`, `c45_violated_split_one`)
* **C46** Basin hopping only accepts physical steps. Acceptance proved exactly. A step is non-negative if any try was; otherwise a negative one is proposed (proved).
  (`c46_violated_negative`)
* **C47** Intermediate fit results never overwrite an existing file and are recorded in order. Exactly the wanted results are recorded, in order. The 21st file is an existing one, the number is put before the directory, numbers have gaps, and differential evolution compares the convergence with the objective cut-off (all proved).
  (`c47_violated_all_exist`, `c47_violated_directory`, `c47_violated_numbers`, `c47_violated_convergence`)
* **C48** Requested calculations and options are dispatched as documented. Calculations are dispatched as documented except for names of imported modules. The --numba flag turns Numba off, alone it makes every run fail, and one -v gives fewer messages than none (all proved).
  (`c48_violated_lookup`, `c48_violated_numba`, `c48_violated_numba_alone`, `c48_violated_verbosity`)
* **C50** Default bead parameters are filled without changing supplied ones. Filling and rejection are characterised completely; the caller's library is modified in place, which violates the last clause.
  (`c50_violated_caller_modified`, `c50_violated_witness`)
* **C51** Bounds handed to a bounded minimiser are honoured. Violated: bounds reach TNC/L-BFGS-B/SLSQP only for exactly two unknowns.
  (`c51_violated`)
* **C52** A fitting input is split into data sets and settings without loss, and each data set gets a complete EOS description. The check for a missing data set never fires.
  (`c52_violated_no_data`)
* **C53** A combining rule evaluated at a temperature uses that temperature. Violated: a given temperature is ignored.
  (`c53_violated`)
* **C55** The initial guess of a fitted parameter is reproducible. Violated: the guess is computed from np.empty(2).
  (`c55_violated`)
* **C56** Splitting a substance into two identical components changes nothing. Holds for the square-well variant; the Mie variant drops a term whenever there is one component, so a chain of unlike groups changes energy when it is listed twice (witness proved).
  (`c56_violated_mie_split`)
* **C57** The square-well maximum density is the density at the requested packing. Holds when all groups have the same diameter; otherwise the maximum density uses a different packing fraction from the energy, and densities below it can be packed beyond one (witness proved).
  (`c57_violated_sw_density_max`, `c57_violated_packing_above_one`)
* **C61** The bonding distance between two components depends on those two components only. Holds for the Mie variant; the square-well variant averages whole matrix rows, so a third component changes the value (witness proved).
  (`c61_violated_sw`)
* **C62** The association solve returns the solution of the mass-action equations. Existence, uniqueness, geometric rate and an error bound are proved; 500 steps are proved to suffice for up to four kinds of sites of which at most 14 in 15 are bonded, and for up to ten with strengths that add up to at most 14 each; the code stops after 500 steps and drops the reported error, so a value 1.9 times the solution is returned for a strong bond (witness proved).
  (`c62_violated`)
* **C63** Self-interacting sites give physical unbonded fractions. A site declared to interact with itself gets energy -|eps|, hence a negative strength and a fraction above one (witness proved). Holds when no site interacts with itself.
  (`c63_violated`)
* **C64** Bonding volumes are physical. Positive when the sites reach each other, zero at contact, cubic scaling; negative instead of zero when the sites cannot reach each other (witness proved).
  (`c64_violated_out_of_reach`)
* **C65** Cross association parameters in the library take effect for exactly the pair they name. A local variable holding the looked-up names is overwritten inside the loop: entries are lost or used for another pair depending on the order of the groups (witnesses proved). Holds when no earlier group carries the second site.
  (`c65_violated_lost`, `c65_violated_spurious`, `c65_violated_cross_only`)
* **C66** Implementation flags select the implementation they name. The cython flag is tested inverted, so cython is never used (witness proved).
  (`c66_violated`, `c66_violated_raises`, `c66_violated_mie`, `c66_violated_command_line`, `c66_violated_absent`)
* **C67** Optional arguments of the association matrix construction can be left out. Leaving the optional arguments out always raises; proved for every library.
  (`c67_violated`, `c67_violated_how`)
* **C68** The flash reports its convergence truthfully. Holds when the loop is left by its convergence test; a restart in the last iteration reports zero error because the previous K-values are the same array (witness proved).
  (`c68_violated`)
* **C70** A flash that collapses to equal phases is restarted from both sides. Both restarts assign the same K-values (proved for all arguments).
  (`c70_violated`, `c70_violated_numbers`)
* **C71** Every point of a batch gets the user's values, with the documented defaults for what was left out. Flash, phase properties, bubble and dew points: every point gets the supplied value or the documented default. Leaving everything out and the saturation calculation violate it (proved).
  (`c71_violated_all_defaults`, `c71_violated_saturation`)
* **C72** Composition and flags returned by a bubble or dew calculation are those of the solved state. Holds for the bubble point's composition. The dew point returns its starting guess, and the flag of the sought phase belongs to the starting guess (proved for all inputs).
  (`c72_violated_dew`, `c72_violated_dew_fresh`, `c72_violated_dew_witness`, `c72_violated_flag`)
* **C73** A failing prediction never makes a parameter set look better. A quantity whose predictions all fail counts as zero as long as another quantity is imperfect (proved). When all fail the objective is infinite.
  (`c73_violated`, `c73_violated_witness`)
* **C74** Density options of a data set reach its calculations. Holds for four classes; TLVE data always runs with no density options at all (proved for every input).
  (`c74_violated_tlve`)
* **C75** A fit leaves its arguments unchanged, so that the same call again does the same. The first call is right. The method is deleted from the caller's dictionary, the shared default dictionary remembers the process pool, and keyword arguments stay in the caller's data sets (all proved).
  (`c75_violated_second_fit`, `c75_violated_shared_default`, `c75_violated_kwargs`)
* **C76** A fitted parameter's name means the same parameter everywhere. Guessing and updating address parameters by the same rules. Groups with an underscore in the name cannot be addressed, and a rejected list has already overwritten earlier parameters (proved).
  (`c76_violated_underscore`, `c76_violated_half_update`)
* **C77** Minimiser options given by the user are used. Holds for basin hopping and shgo without constraints. In the grid minimisation every nested option raises, and in shgo with constraints an unsupported option raises instead of being dropped (proved).
  (`c77_violated_grid`, `c77_violated_prune`)
* **C78** Conditions missing in a data set have their standard values. The pressure default works, the temperature default is unreachable in three classes (proved for every input).
  (`c78_violated_temperature`, `c78_violated_key`)
* **C79** Predictions are tabulated where the objective function looks for them. Holds for two outputs or more of rectangular shape and at least one state, with the number of columns of each. A single output of compositions is tabulated the other way round, and the length returned for a single output is the number of states (proved); no class of data has a single output of compositions.
  (`c79_violated_one`)
* **C81** Data sets without anything to compare with are rejected, and all others accepted. Holds for flash and saturation data; the other three classes violate it (proved).
  (`c81_violated_liquid`, `c81_violated_tlve`, `c81_violated_solubility`)
* **C82** Without a calculation type the class's own calculation is used. Holds for four classes; TLVE data of mixtures without calculation type is always rejected (proved).
  (`c82_violated_dew`, `c82_violated_bubble`)
* **C85** Logging handlers follow the request. A file handler is never removed, False even makes one, an unmentioned console handler is removed, and a new verbosity does not reach existing handlers (all proved).
  (`c85_violated_false`, `c85_violated_console`, `c85_violated_level`)
* **C86** Settings of one data set take precedence over general settings. A general setting replaces the data set's own one (proved).
  (`c86_violated`)
* **C87** The output table holds the results. Columns and rows are right. The comment never names the calculation (proved). Number formatting is not modelled.
  (`c87_violated_comment`)
* **C88** Constraints and minimiser options given to a fit reach the global method. Constraints reach no method at all; minimiser options reach the methods that have a local minimiser and make the others, among them the default one, fail (proved).
  (`c88_violated_constraints`, `c88_violated_default`)
* **C90** Options for the range and the spacing of the curve are honoured. The step is honoured where the curve is not extended, the low pressure is reached for pressures proportional to the density. The curve may stop before the requested density, the extension makes larger steps, one point per extension makes none, and multfactor is unused (all proved).
  (`c90_violated_min_density`, `c90_violated_increment`, `c90_violated_one_point`, `c90_violated_multfactor`)
* **C92** An accepted saturation pressure is an equilibrium pressure. scipy's minimiser and density refinement are assumed to stay within their bounds and the roots of a spline to be positive and increasing. With three roots and a spline that reproduces the isotherm the fugacities agree for every equation of state whose fugacity follows from its pressure, and for Peng-Robinson. Violated (proved): with two roots, when the curve ends before the vapour, the second area is that up to the zero of a straight line, and a pressure is accepted although the areas do not cancel.
  (`c92_violated_tail`)
* **C93** Saturation is refused for mixtures and empty above the critical point. Mixtures are refused, but with one dominant component by a TypeError; loops below 1 Pa fail; of more than three roots the third is taken; and a failure in the fugacity coefficients computed for a message is a failure of the calculation (all proved).
  (`c93_violated_message`, `c93_violated_low_pressure`, `c93_violated_last_root`, `c93_violated_check`)
* **C94** A vapour composition that is returned reproduces itself. Every composition returned with coefficients has them for itself and comes from one of four sources. Only the first, convergence before the last iteration, is a solution. Mixtures of three whose guess gives no vapour are returned unchanged, equal smallest fractions raise, convergence in the last iteration is discarded and gives two fractions for any number of components, a missing vapour raises instead of giving NaN, and the objective of the last resort is zero for wrong compositions (all proved).
  (`c94_violated_no_vapor`, `c94_violated_equal_fractions`, `c94_violated_last_iteration`, `c94_violated_nan`, `c94_violated_objective`)
* **C95** A liquid composition that is returned reproduces itself. A composition that converged before the last iteration reproduces itself and has its own coefficients. After the last iteration the composition comes from least squares without a test, with the coefficients of another one, and the objective it minimises vanishes at the trivial solution only (proved).
  (`c95_violated_last_iteration`, `c95_violated_objective`)
* **C96** The search between a vapour and a liquid ends at the vapour's boundary. Holds if the objective of vapours stays below the inverse tolerance and only two kinds of fluid occur. A third kind raises IndexError, equal kinds give the upper bound, and after a large objective a liquid can be returned (proved).
  (`c96_violated_third_flag`, `c96_violated_same_flag`, `c96_violated_high_objective`)
* **C97** A new guess of a composition is a non-trivial minimum that gives the phase. Roots and curvature of scipy's spline are parameters. A single stationary point is taken even if it is a maximum, for liquids the leftmost minimum is taken, and a grid point without fugacity coefficients raises (proved).
  (`c97_violated_maximum`, `c97_violated_leftmost`, `c97_violated_nan`)
* **C98** The pressure range of a bubble point encloses a solution. Holds with floating-point limits when neither a critical fluid is looked for nor the minimiser is used. The minimiser's test has the wrong sign, so that a range without a change of sign is accepted and one with it is given up; a critical fluid gives two negative ends; integer limits truncate the ends; the last iteration cannot succeed; a missing vapour raises (proved).
  (`c98_violated_well`, `c98_violated_last_iteration`, `c98_violated_no_vapor`, `c98_violated_no_sign_change`, `c98_violated_sign_change_lost`, `c98_violated_critical`, `c98_violated_integers`)
* **C99** Pressure limits given by the user restrict the search. Holds with both limits, the lower below the upper. An upper limit alone that is below 1000 Pa is replaced by twice that, and equal limits are exceeded (proved).
  (`c99_violated_upper_limit`, `c99_violated_equal_limits`)
* **C101** The pressure range of a dew point brackets the solution. Holds for the ranges returned with floating-point limits and a positive lower one. An objective that falls on the way raises TypeError; a liquid at the first pressure leaves a variable unbound; an objective of exactly zero is not recognised; the last iteration cannot succeed; a range is lost at an upper limit with a negative objective; integer limits truncate the ends; a flat objective sends the pressure to infinity (proved).
  (`c101_violated_well`, `c101_violated_unbound`, `c101_violated_zero`, `c101_violated_last_iteration`, `c101_violated_sign_change_lost`, `c101_violated_upper_limit`, `c101_violated_integers`, `c101_violated_endless`, `c101_violated_plateau`)
* **C102** Pressure limits given by the user restrict the search for a dew point. Holds with both limits, the lower below the upper. An upper limit alone that is below 1000 Pa is replaced by twice that, and equal limits are exceeded (proved).
  (`c102_violated_upper_limit`, `c102_violated_equal_limits`)
* **C103** Ideal contribution to the Helmholtz energy. Value, derivatives and mixing are proved. Negative fractions are dropped and a density of zero gives minus infinity, both without an error (proved).
  (`c103_violated_negative`, `c103_violated_zero`)
* **C104** SAFT pressure is the density derivative of the Helmholtz energy. The pressure is the exact one at a density within the step (mean value); ideal gas to a relative error of s²/(1−s²). At zero density the calculation raises (proved).
  (`c104_violated_zero`)
* **C105** SAFT fugacity coefficients satisfy the Gibbs relation. Proved for the components present. Absent components get a coefficient unrelated to their energy, the option log_method is ignored, and a pressure of zero or below is not refused but gives infinite coefficients or NaN (proved).
  (`c105_violated_absent`, `c105_violated_log_method`, `c105_violated_pressure`)
* **C106** Initial guesses of bubble and dew points. Holds for a pressure guess that is not zero; a guess of zero makes every entry NaN (proved).
  (`c106_violated_zero`)
* **C108** Combining rules for association parameters. Proved for one pair of sites, and for whole runs in an example. An energy of zero in the cross library is replaced by the combined one (proved). See C65 for the order of the groups.
  (`c108_violated_zero`)
* **C110** The first consistency test detects inconsistent fugacity coefficients and passes consistent ones. Proved for Peng-Robinson. The density is not changed with the pressure, so for the SAFT equations the value is -1/(ρRT) for every residual energy, and for Peng-Robinson it is zero for all parameters and densities: the test cannot tell a consistent equation from an inconsistent one (proved).
  (`c110_violated_saft`)
* **C111** The second consistency test measures the Gibbs-Duhem residual. Refusals are proved. The division by the step is undone, so that the value tends to zero with the step for all continuous coefficients; and at fixed density it is not zero for a consistent gas (proved).
  (`c111_violated_blind`, `c111_violated_consistent`)
* **C112** Fugacity coefficient of a mixture. Proved except for an array of compositions, where every entry adds the weights of all compositions (proved).
  (`c112_violated_compositions`)
* **C114** Solubility parameter from the residual energy. Filter, spline and line fit are parameters. The curves begin at a volume larger than that of the liquid, a rising tail reduces the energy, and grids that are extended differently at the two temperatures raise, even for an ideal gas (proved).
  (`c114_violated_rising`, `c114_violated_start`, `c114_violated_grid`)
* **C117** Low-density limit of the monomer energy. The limits are proved. For a pure fluid of a molecule with groups of different sizes the formula for one component is used and the slope of the hard spheres is not their second virial coefficient (proved).
  (`c117_violated_dimer`)
* **C120** Densities beyond close packing are refused. Proved for one density. In a list one admissible density lets all others pass (proved).
  (`c120_violated_mixed`)
* **C121** Contact values for association. With cut-off distances the calculation always raises IndexError: a table of two columns is written in its third and fourth (proved). The formula behind it is that of hard spheres.
  (`c121_violated_always_raises`)
* **C123** The square-well fluid becomes an ideal gas. Proved for the monomers. The chain term does not vanish: it uses the contact value, which tends to 1+ε/T, so the residual energy of a dilute gas of chains is not zero (proved).
  (`c123_violated_chain`, `c123_violated_dimer`)
* **C124** Names of components and groups carry no physics. Proved for all terms of both variants except the hard spheres of the Mie variant between one and several components, see C56.
  (`c56_violated_mie_split`)
* **C125** The square-well monomer term refuses what its formulas cannot use. Proved for one density. In a list one admissible density lets all others pass (proved).
  (`c125_violated_mixed`)
* **C127** Association strengths are positive wherever the equation of state accepts the density. Proved for reduced densities up to 1.125 and reduced temperatures up to 10, with bounds 0.005 and 0.1. At the reduced density 1.5, which the guard on the packing fraction accepts, the correlation is negative for reduced temperatures from 0.5 to 8 (proved).
  (`c127_violated_spheres`)
* **C69** Mole fractions that add up to one are accepted. Numbers are rounded as doubles here. Two components are always accepted, and so are multiples of a common power of two; what is accepted adds up to one within one rounding per component. The comparison without tolerance refuses 0.2, 0.7, 0.1 but accepts 0.1, 0.2, 0.7, and refuses equal fractions of six components (witnesses proved).
  (`c69_violated_decimal`, `c69_violated_order`, `c69_violated_equimolar`, `c69_violated_normalised`, `c69_violated_absent`)
* **C128** The compiled implementations of the association solve agree with the python one. Proved for numba on every input. The cython copy tests the damping against the new elements: it agrees exactly as long as n(1+S) ≤ 1000, and to the tolerance when both converge; for strengths of 20000 it is 9 % off, and a negative strength can make it raise (witnesses proved).
  (`c128_violated_cython`, `c128_violated_raises`)
* **C129** Data files become the data sets they describe. Proved for tables of two rows or more with columns in the order of the components. A file with one row gives a vector instead of a composition, so one point of a binary mixture counts as two points; numbers in the names are not read; any column beginning with x, y or z becomes a component; a file overrides the entries before it and is overridden by those after it (witnesses proved).
  (`c129_violated_one_row`, `c129_violated_one_point`, `c129_violated_three_components`, `c129_violated_numbering`, `c129_violated_name`, `c129_violated_order`, `c129_violated_eos_dict`)
* **C130** A file of keys and values becomes the dictionary written in it. Proved for values that can be evaluated. A text keeps its line end, a key with a digit in second place cannot have a text, lines with a second delimiter are lost, and a last line of one blank raises (witnesses proved).
  (`c130_violated_newline`, `c130_violated_digit`, `c130_violated_blank`, `c130_violated_index`)
* **C131** The mole fraction of a component belongs to the component listed in the same place. Proved for the SAFT equations. The cubic equation of state takes the alphabetically sorted group names as its components: the order of the configuration is kept only if it is alphabetical, numbers of groups are ignored, components of the same group become one and a component of two groups becomes two (proved).
  (`c131_violated_order_iff`, `c131_violated_counts`, `c131_violated_number`, `c131_violated_density`)
* **C132** An equation of state is built exactly when all it needs is there. What is needed is characterised exactly. Unknown keywords are ignored, the cubic equation ignores the composition, and a group of the library that is not used but lacks a parameter makes SAFT refuse (proved).
  (`c132_violated_keyword`, `c132_violated_composition`, `c132_violated_unused`)
* **C133** The terms of the Mie fluid do not depend on the implementation or on how the densities are written. Proved for arrays of floats. Intermediate arrays take the element type of the densities, so densities given as integers set the effective packing fraction to zero in the python (and cython) file without a message, an error of more than a third at the packing fraction 0.4; numba refuses them. An exponent of zero raises in python and gives NaN in the compiled files (proved). The terms that call these functions are the first and second order and the chains; the hard spheres and the third order do not.
  (`c133_violated_packing`, `c133_violated_a1s`, `c133_violated_numba`, `c133_violated_value`, `c133_violated_exponent`, `c133_violated_numba_terms`, `c133_violated_second`)
* **C134** The phases that are returned are in equilibrium. The whole calculation is put together from the modelled loops. Proved for bubble points of two components whose inner loop converged, with an explicit bound, and for flashes that were not given up; for ideal mixtures the objective vanishes exactly at the sum of the partial pressures. Violated: with three components only the smallest mole fraction is compared, an inner loop that did not converge is accepted because the outer loop discards its coefficients, a dew point returns the composition it started from, and above both saturation pressures the flash of an ideal mixture returns two phases with the error zero. For ideal mixtures between the saturation pressures the flash returns the compositions of the law of Raoult.
  (`c134_violated_ternary`, `c134_violated_unconverged`, `c134_violated_dew`, `c134_violated_flash_outside`)
* **C135** A fluid has vapour and liquid densities exactly below its critical temperature. For given mixture parameters the loop is characterised exactly (a <= 5.87736 b R T). With the constants of the code the substance has one density from 7e-8 above its critical temperature for kappa up to 0.999. Violated: at the critical temperature itself a loop remains because of the rounded constants, and for kappa above one (acentric factor above about 0.44) the loop returns at high temperatures because alpha grows again.
  (`c135_violated_at_critical`, `c135_violated_hot`)
* **C136** A pure substance has one saturation pressure below its critical temperature, none above, and the search finds it. Existence, uniqueness and the bound of the error are proved for the cubic equation of state. For kappa below one a saturation state exists exactly below a critical temperature that lies up to 7e-8 above that of the library, because the constants are rounded; for kappa above one a saturation state appears again at high temperature (proved). The range that is searched holds the saturation pressure whenever the samples reach from the liquid to the vapour volume in steps smaller than the distances of the middle volume to both; a coarser sampling can place the range above it (proved). The spline is assumed to reproduce the isotherm.
  (`c136_violated_hot`, `c136_violated_coarse`)
* **C137** The density search returns the vapour and the liquid density, each with its label. Proved for all isotherms of this shape, in particular those of the cubic equation of state at any composition, if the densities at a pressure differ by more than one percent and the spline reproduces the isotherm. Pressures that touch an end of the loop are left out. Violated: close to the critical point the bracket of one percent around the lowest (highest) density contains all three, and the root finder may return the unstable one as the vapour and as the liquid.
  (`c137_violated_near_critical`)
* **C138** Each prediction is compared with the measurement of the same quantity, component and state. Proved for all five classes from the outputs of the calculation to the objective, and from the data set as given. Violated: fugacity coefficients of liquid data are accepted as results and never compared; liquid data without densities and TLVE data with another calculation are accepted and every evaluation fails; a composition stored as one number for each state cannot be compared; data equal to the predictions give an infinite objective. That the pressures of TLVE data are also the initial guess of the calculation is modelled (C80) and intended.
  (`c138_violated_calculation`, `c138_violated_phil`, `c138_violated_no_density`, `c138_violated_flat`, `c138_violated_recovery`)
* **C139** The objective at a set of parameters does not depend on the sets tried before. Proved for the square-well fluid without cutoff distances, and for the Mie fluid when the first state of the data has another temperature than the last. Violated: with data at one temperature (other than 298 K) every evaluation after the first uses the hard-sphere diameters of the first set of parameters tried, and with cutoff distances also its bonding volumes. The calculation is an arbitrary process that asks one question after the other; that written parameters overwrite each other is proved for the libraries (c139_overwritten) and assumed for the abstract state.
  (`c139_violated_bonding`, `c139_violated`)
* **C140** Options given for a global method reach the optimiser, and only those it knows. The keyword arguments are computed exactly for all four methods that call scipy. Violated: basin hopping hands the documented option write_intermediate_file = False on to scipy and fails; with workers = -1 the optimiser starts its own processes with data sets that carry the pool; brute force reports too few evaluations. Which keywords scipy knows is a parameter.
  (`c140_violated_hopping`, `c140_violated_all_cores`, `c140_violated_count`)
* **C141** A run writes its results, logs what its processes say, and leaves nothing behind. Proved for successful runs, and for the messages of the processes of the start. Violated: after any exception the processes and their log files stay; results that do not fit in a table are lost in a run that succeeds; the processes log warnings only, whatever the verbosity, and with one flag -v even these are discarded; messages of a replaced process are never read; --log without a name, run without a pool object and batch_jobs raise.
  (`c141_violated_failure`, `c141_violated_lost`, `c141_violated_no_pool`, `c141_violated_replaced`, `c141_violated_verbosity`, `c141_violated_warnings`, `c141_violated_log`, `c141_violated_batch`)
* **C142** A point that fails costs its own row of the table only. Proved for bubble and dew points, flashes, saturation properties and solubility parameters, and for properties of a phase if there is a coefficient for each component. Violated: for activity coefficients and verify_eos a failed point has numbers where the others have arrays, and the properties of a phase without a density have two coefficients whatever the number of components; the table is then lost as a whole (a run still succeeds, C141), or has arrays in its cells.
  (`c142_violated_activity`, `c142_violated_activity_first`, `c142_violated_verify`, `c142_violated_properties`)
* **C143** Activity coefficients belong to the phases of their row. The equation for the coefficients and the return of what was given are proved in all modes. Violated: at a dew point the liquid in the row is the starting value, so that in a new process all coefficients are equal whatever the equation of state; a component above its critical temperature has no coefficient although a bubble point was found.
  (`c143_violated_dew`, `c143_violated_critical`)
* **C144** A fit returns its parameters in the order of the names, with their objective, and reports what is wrong with its input. Proved for all inputs; that the objective is that of the parameters is proved for single_objective (for the grid in C45) and otherwise up to scipy. Violated: missing names are a KeyError and an empty dictionary of data an IndexError, although both are checked elsewhere; every exception of a global method becomes a TypeError and every exception of a data class an AttributeError; a fit in which no data set could be evaluated returns its guess with an infinite objective.
  (`c144_violated_names`, `c144_violated_empty`, `c144_violated_cause`, `c144_violated_nothing_evaluated`)
* **C145** The combining rules a user names are the ones that are used. Proved for all dictionaries of rules without the multipole rule, which needs an optional package. Violated: the rule "None" leaves the cross parameter zero; a rule without its function that fails raises a KeyError; additional_outputs is refused by every rule; with one group nothing is checked.
  (`c145_violated_none`, `c145_violated_error`, `c145_violated_additional`, `c145_violated_unnoticed`)
* **C146** Numerical derivatives in double precision are accurate. Proved with explicit numbers for the relative step of the pressure and the step in the logarithm of the fugacity coefficients, over exact real functions and correctly rounded operations (overflow left out). Violated: the consistency test of the fugacity coefficients takes a step of 1e-5 Pa at every pressure, so that at 100 to 200 bar the derivative of a straight line is off by 5e-5 to 1e-4, and at very high pressures it is zero.
  (`c146_violated_absolute`, `c146_violated_line`)
* **C148** An exported library of parameters is complete, in order and reproducible. Every group and parameter is exported, in order. Violated (all proved): names that differ only in case are written in the order they were stored, groups are not sorted, a value JSON cannot hold destroys an existing file, and a refused library is left half sorted.
  (`c148_violated_case`, `c148_violated_outer`, `c148_violated_lost`, `c148_violated_half`)
* **C149** Data sets do not change each other's weights. The same description used again gives the same data set. Violated (proved): the dictionary of weights is shared and changed, so that another data set with other states is rejected, and bubble and dew points with one dictionary lose weights.
  (`c149_violated_lengths`, `c149_violated_dew`)
* **C150** The effective packing fraction of the Mie fluid is one. Below one for exponents from 3 to 71 at all accepted densities and for all exponents up to the packing fraction 0.98; positive for exponents from 5.2 on. Violated (proved): from exponent 72 on, which the bounds reach through the double of the repulsive exponent, the energy takes values beyond every bound in both directions at accepted densities; for exponents up to five the fraction is negative near close packing.
  (`c150_violated_exponent`, `c150_violated_pole`, `c150_violated_negative`)
* **C151** The effective packing fraction of the square-well fluid is one. Below one for ranges up to 2.682 and positive for ranges up to 1.599 at all accepted packing fractions. Violated (proved): for ranges from 2.683 to the bound of ten the first-order energy takes values beyond every bound in both directions at accepted densities; for ranges from 1.6 to 4.64 the fraction is negative at an accepted packing fraction. So from 1.6 on every range has accepted densities at which the fraction is no packing fraction. The exact conditions are proved too: below one at all accepted packing fractions if and only if it is at 0.65, and between zero and one if and only if the range is below 1.6 and it is positive at 0.65.
  (`c151_violated_negative`, `c151_violated_range`, `c151_violated_pole`, `c151_violated_energy`, `c151_violated_sign`, `c151_violated_from`)
* **C152** The contact value in the chain term is positive. Positive at every state of the Mie fluid. In the square-well fluid positive for groups of one diameter and one range from 1.2 to 2 at every accepted density and every temperature from half the depth of the well on. Violated (proved): at a packing fraction of 0.3 and every range from 1.3 to 2.4 the value is negative below a temperature proportional to the depth, for instance at a fifth of it for range 1.5; the logarithm is then not a number, which the code only logs.
  (`c152_violated_negative`, `c152_violated_five`, `c152_violated_state`)
* **C153** The second-order term lowers the energy. Square well: holds for ranges up to 2.682 at packing fractions up to 0.642, and up to the accepted 0.65 unless the range lies between 1.49 and 1.623; violated (proved) at 0.65 for ranges from 1.491 to 1.622. For ranges up to 2.682 it holds at all accepted packing fractions exactly if it does at 0.65 (c153_exact). Mie: the correction 1 + chi is positive for van der Waals energies from 0.1 to 1 and reduced densities up to 0.65; violated (proved): it is negative for the Lennard-Jones fluid between 0.85 and 1, and for exponents 18 and 6 the whole term is positive at the accepted packing fraction 0.8 at every temperature. For Lennard-Jones groups the whole term is negative up to twice the energies of the groups and the packing fraction 0.6, and positive (proved) at the packing fraction one half between twelve and twenty times these energies. Not proved: the sign of the whole term for other exponents at ordinary densities.
  (`c153_violated_derivative`, `c153_violated_state`, `c153_violated_correction`, `c153_violated_lennard_jones`, `c153_violated_mie`, `c153_violated_hot`)
* **C154** Hard spheres resist compression. Holds as long as the packing fraction of the groups' own diameters is below one. Violated (proved): the guard looks at the packing fraction of the pair diameters, which is smaller, by up to a factor of four; as soon as two groups of different diameters are present there are accepted densities at which the other one is above one, where a mixture takes the logarithm of a negative number and the energy of a pure fluid falls on compression. For the square-well variant see also C57.
  (`c154_violated_packing`, `c154_violated_falls`)
* **C155** Attraction lowers the energy of the monomers. Lennard-Jones groups: the first order is negative up to forty times the energies of the groups and the packing fraction 0.65, all orders up to twice these energies and the packing fraction 0.6. Third order, all exponents: negative when the van der Waals energies are at least 0.21. Square well: ranges up to 2.682 and packing fractions up to 0.642. Violated (proved): below half the energies of the groups the accepted packing fraction 0.8 has a positive first order; van der Waals energies up to 0.2, as for exponents 30 and 15, give a positive third order at every density; for the square well see C151 and C153. Not proved: the first order of other exponents.
  (`c155_violated_first`, `c155_violated_third`, `c155_violated_short_ranged`)
* **C156** Heating raises the saturation pressure. Proved for every pair of temperatures at which alpha has not yet passed its zero, in particular up to the critical temperature of the library. The saturation states are the exact ones; c136_found says when the search returns them. Violated (proved): for kappa above one, far above the critical temperature, where alpha rises again, heating thins the vapour and compresses the liquid.
  (`c156_violated_hot`)
* **C157** Heating raises the pressure and expands the fluid. Proved as long as no alpha has passed its zero, which includes all temperatures up to the critical ones, and for interaction parameters up to one. Violated (proved): with kappa = 2, between nine and sixteen times the critical temperature, heating at half of close packing lowers the pressure, because alpha rises again.
  (`c157_violated_hot`)
* **C158** The bubble and dew objectives of a pure fluid change sign only at the saturation pressure. Proved for every pressure at which the isotherm has three densities, which includes a range around the saturation pressure; the roots of the isotherm are exact and the solvers stay at a density that already solves the equation. Violated (proved): at a pressure with a single density both density functions return it and both objectives are exactly zero, so every such pressure looks like a bubble point, and at supercritical temperatures every pressure does.
  (`c158_violated_single`, `c158_violated_supercritical`)
* **C159** An ideal gas is assumed only for vapours that nearly are one. Proved for isotherms without a root on the curve whose spline is asked inside its range; with the default range the error of a pure substance of the library between half and all of its critical temperature is below 4e-4 in the logarithm. Violated (proved): with options that let the curve end earlier the coefficient is wrong by any amount, and because the spline of the volume is asked at the lowest density, a fluid denser than the curve can be taken for an ideal gas when that number lies beyond the range of volumes. With two roots an ideal gas is assumed whenever the least squares fit raises an exception, whatever the vapour is.
  (`c159_violated_short`, `c159_violated_dense`)
* **C160** A phase of constant fugacity coefficients gets the composition they give. Proved for the vapour, exactly, and for the liquid of two components within half the tolerance, for compositions with one smallest fraction and a search for non-trivial solutions that finds a composition. Violated (proved): for a liquid of three components a guess is returned unchanged when its smallest fraction is right and the mole numbers add up to one, and one substance under two names in equal amounts raises ValueError.
  (`c160_violated_liquid`, `c160_violated_equal`)
* **C161** The flash of an ideal mixture gives the phases of Raoult's law. Proved for K-values within the range of the search (the second not below 2^-26 nor above 1e8) and not both within a millionth of one. Violated (proved): for K-values both above one, a gas, two phases are returned; the smaller K-value is replaced by random numbers and the error that is reported compares two of them.
  (`c161_violated_one_phase`)
* **C162** The search for a bubble pressure encloses it whenever the objective falls through zero once. Proved for all objectives that fall through zero once; the range is the good one of C98. With a lower limit above the bubble pressure the search raises, as it should. Violated (proved): a search that begins exactly at the bubble pressure, where the objective is zero, raises ValueError; and if the vapour has the composition of the liquid within the tolerance of the option xytol, as at an azeotrope, no range is found at all, whatever the limits; with an upper limit below the bubble pressure a range that does not contain it can be returned.
  (`c162_violated_above_limit`, `c162_violated_start`, `c162_violated_same_composition`, `c162_violated_pure`)
* **C163** The search for a dew pressure encloses it whenever the objective rises through zero once. Proved for all objectives that rise through zero once and a dew pressure above the lowest pressure of the search. Violated (proved): if the dew pressure is not above the lowest pressure (by default 1000 Pa, or the lowest extremum of the isotherm), the search never leaves this pressure, because both ends of the range are there, and raises ValueError after all iterations; the search for a bubble pressure goes down instead.
  (`c163_violated_low`)
* **C164** The bubble and dew points of an ideal mixture are those of Raoult's law. The bubble point is proved from every state. The dew point is proved when no earlier calculation has left a composition. Violated (proved): otherwise the pressure is right, but the liquid composition that is returned is the one left by the calculation before. The search for the range is the modelled one of C162 and C163, the root finder is any that encloses a zero (bisection is shown to be one), and in c164_bubble_loop and c164_bubble_batch the composition loop is the modelled one of C160, and the state that one point leaves for the next is followed through a batch; for the dew point the composition loop is taken to return the composition of Raoult's law, because the coded loop may keep a wrong one (C160).
  (`c164_violated_dew`)
* **C165** Activity coefficients of an ideal mixture are one. Proved for liquids in every row of a batch, for flashes exactly, and for the first vapour of a process. Violated (proved): the coefficients of every later vapour are those of the liquid that the calculation before has left, for instance 2/3 and 2 instead of one.
  (`c165_violated_dew`, `c165_violated_batch`)
* **C168** Rounding moves the pressure by no more than 2e-14 of its repulsive and attractive parts. Rounding to nearest even with 53 digits and gradual underflow; overflow is not modelled. The parameters a and b of the mixture are the doubles that the object holds; their own rounding is not followed. A bound relative to the pressure itself does not exist: a state with a positive pressure for which a negative one is computed is shown.
  (`c168_violated_sign`)
* **C169** Rounding does not change the phases of a flash. Proved for a light component that is listed first. Violated (proved): listed second, its liquid fraction is the difference from one of a rounded number, and the vapour fractions are off by as much as 2e-15 times its ratio: by 2e-5 at a ratio of 1e12, and completely at 2^60. A vapour of a flash can be refused as a composition, since its fractions add up to one only within rounding. Overflow is not modelled.
  (`c169_violated_order`, `c169_violated_sum`)
* **C170** Rounding moves the objective of a bubble or dew point by a few units in the last place. Overflow is not modelled; fugacity coefficients are the doubles that the equation of state returns. The objective of two equal phases of a mixture is not exactly zero (witness proved), that of a pure component is. The enclosure is stated for any function with the error and the slope.
  (`c170_violated_trivial`)
* **C171** The volumes of the pressure curve stay distinct and in range in double precision. Strictly increasing volumes are proved in full for these options. The upper bound is violated: np.arange rounds the number of points, and its last point can lie above the end (8.4 mol/m3 with a lower end of half of it and an increment of 0.7); proved is that it exceeds it by at most a relative 4e-15 when the lowest density is not above the increment. Overflow is not modelled.
  (`c171_violated_top`)
* **C172** A square-well fluid condenses when it is cold and not when it is hot. The cold part is proved for all ranges, the hot part if the effective packing fractions are below one at the largest accepted density, as for ranges up to 2.682 diameters. For other ranges it is violated: with a range from 2.683 on, which the bounds allow up to 10, the effective packing fraction reaches one and the pressure of a fluid of spheres of that range is negative somewhere at every temperature. The same holds for mixtures of which only one pair of groups reaches one, so that the condition is exact when all groups are present (c172_hot_iff). The pressure is the derivative of the energy (C104 links it with the difference quotient of the code); the chain term is zero for spheres.
  (`c172_violated_range`, `c172_violated_mixture`)
* **C173** Rounding in the mixing rules is a few units in the last place. The error bounds are proved in full. Independence of the order and the parameters of a pure substance hold up to these errors only: the last place changes when two components are exchanged, and the attraction of a pure substance is not exactly the product of its own parameters (witnesses). Overflow is not modelled; the parameters of the components are taken as the doubles stored in eos_dict.
  (`c173_violated_order`, `c173_violated_pure`)
* **C174** Rounding from the critical constants to the pressure. The square is the library's pow, assumed within two units (the product of the number with itself is an instance, goodSquare_mul). The bound on alpha needs the squared number to be at least one half: near its zero no relative bound holds (witness: a positive alpha is computed as zero). Overflow is not modelled.
  (`c174_violated_zero`)
* **C175** The fitting objective survives rounding. The measures are proved in full for ordinary sizes; a tiny weight hides a mismatch (witness). The penalty is positive outside the bounds and never lowers the total, but it does not always raise it: with an objective of one, a parameter a hundred-thousandth outside a bound of one costs nothing, and the penalty itself underflows next to a bound of zero (witness). The eighth power is the library's pow, assumed within two units; overflow and sums of more than 128 numbers in blocks are not modelled.
  (`c175_violated_weight`, `c175_violated_penalty`)
* **C176** Fugacity coefficients survive rounding. The library's square, logarithm and exponential are parameters, off by at most two units. The limit of 98 % is not a matter of the proof: at a density below the densest packing Z - B can be computed as zero, and the code takes the logarithm of zero (witness). Overflow is not modelled.
  (`c176_violated_packing`)
* **C178** The density searches ask only for densities that SAFT accepts. True of SAFT-gamma-Mie. The square-well fluid refuses densities above packing fraction 0.65, where its isotherm ends, while the searches go to 0.99: a compressed square-well liquid above the isotherm is always reported as no fluid, and a density in the last percent of the isotherm ends in ValueError (both proved). That least_squares fails when its starting point is refused is a hypothesis.
  (`c178_violated_compressed`, `c178_violated_edge`)
* **C179** Every fluid has an isotherm with the default options. True for largest densities from 5004.56 to 100000 mol/m3. Below 5004.55 the array has more than the allowed million points and above 100000 the density is called infeasible; both raise ValueError. So with the cubic equation decane and heavier alkanes, and with SAFT molecules of more than 0.412 nm3 or spheres below 0.274 nm, have no density and no phase equilibrium unless the options are changed (proved). A batch of saturation calculations then has rows of NaN at every temperature, as above the critical point (proved); liquid and vapour properties are NaN too, and the test of an equation of state stops with the exception (proved). The data classes use other options, with windows from 800.1 and 3001. The number of points is given exactly, so the densities that have an isotherm are known from 250 mol/m3 on (c179_exact).
  (`c179_violated_cubic`, `c179_violated_saft`, `c179_violated_rows`, `c179_violated_saft_rows`, `c179_violated_verify`)
* **C180** Unbonded fractions are fractions at every accepted density. True for reduced densities up to 1.125 and reduced temperatures up to 10. At a reduced density of 1.5, which the guard accepts, the strengths are negative (C127): weak ones give fractions between one and two and a positive energy, for stronger ones there is no positive solution, the loop makes all its iterations, and the fraction returned can be -1, whose logarithm is NaN (proved).
  (`c180_violated_spheres`)
* **C181** Association enters pressure and fugacity as the exact energy. For strengths that are not negative the contribution is a non-positive number, and where the iteration converged the pressure is within R T rho^2 delta / h of the exact difference quotient, with delta of the size of the tolerance (step h). With negative strengths, which accepted densities can have (C127, C180), the residual energy is NaN without an exception and with it all fugacity coefficients returned (proved). With up to four kinds of sites of which at most 14 in 15 are bonded the iteration converges and the error of the pressure is at most 0.00035 ideal pressures per site (proved). Where 500 steps do not suffice (C62) the pressure is wrong: with 97.8 percent of the sites bonded it exceeds the pressure of the exact fractions by more than 12 rho R T at every temperature and density (proved).
  (`c181_violated_spheres`, `c181_violated_strong`)
* **C182** Cleaned plot data is a function of the abscissa. Proved without NaN and with an ordinate for each abscissa. One NaN among the abscissae, or a missing ordinate, is an IndexError (proved). The function is not called in the package.
  (`c182_violated_nan`, `c182_violated_short`)
