{"id": "C01", "title": "Input columns of one calculation are brought to one common length, or rejected", "statement": "When several per-point inputs (temperatures, pressures, compositions) are given to a calculation, then either every one of them comes back with the same number of rows n, where each input that had n rows is returned unchanged and each input with a single row (or scalar) is repeated n times, or a ValueError is raised; it is raised exactly when some input has a length that is neither 1 nor n, or when nothing at all was given and no length was requested. No input is dropped, invented, truncated or reordered.", "quantifier": "every set of keys, every dictionary of scalar/array inputs with any lengths, with or without a requested length", "why_tests_cant": "There are infinitely many combinations of lengths, keys and present/absent inputs; a test samples a few.", "anchors": ["despasito/utils/general_toolbox.py:check_length_dict"]}
{"id": "C02", "title": "Defaults never override what the user supplied", "statement": "Filling defaults for per-point inputs adds exactly the requested keys that are missing and leaves each user-supplied value exactly as it was; with a requested length, a scalar default is repeated to that length; the call is rejected with ValueError exactly when the numbers of keys and of defaults do not match.", "quantifier": "every input dictionary, every list of keys and defaults, every requested length", "why_tests_cant": "The guarantee ranges over arbitrary dictionaries and key lists, including repeated keys.", "anchors": ["despasito/utils/general_toolbox.py:set_defaults"]}
{"id": "C03", "title": "Root-finder selection never dispatches to a solver whose prerequisites are missing", "statement": "For every combination of requested method, initial guess and bounds, solving a root problem either raises a ValueError up front or runs exactly one solver, and that solver is applicable: a solver that needs an initial guess is only run with one, and a bracketing solver is only run on a scalar problem with two numeric end points.", "quantifier": "every method name, every initial guess (absent, scalar, vector of any length), every bounds argument", "why_tests_cant": "The decision is a nested sequence of fallbacks where each rewrites the method; a test exercises one path through it.", "anchors": ["despasito/utils/general_toolbox.py:solve_root"]}
{"id": "C04", "title": "Numerical derivative is exact to second order and unbiased", "statement": "The central difference used for the pressure of a SAFT equation of state returns, for every array of points, an array of the same length whose i-th entry depends only on point i for point-wise functions, equals the exact derivative for every polynomial of degree at most two, and converges to the derivative of every differentiable function as the step goes to zero.", "quantifier": "every array of points, every positive step size, absolute or relative, every quadratic and every differentiable function", "why_tests_cant": "Exactness for all quadratics and convergence for all differentiable functions are statements about infinitely many functions.", "anchors": ["despasito/utils/general_toolbox.py:central_difference", "despasito/equations_of_state/saft/saft.py:EosType.pressure"]}
{"id": "C05", "title": "Parallel and serial execution of a batch of points give the same results in the same order", "statement": "For any per-point calculation and any list of points, the results returned do not depend on the number of workers nor on the order in which workers finish: running with a pool gives the same per-quantity columns, in input order, as running serially.", "quantifier": "every per-point function, every list of points, every worker count and completion schedule", "why_tests_cant": "Schedules are not under test control; equality is needed for all of them.", "anchors": ["despasito/utils/parallelization.py:MultiprocessingJob.pool_job", "despasito/utils/parallelization.py:MultiprocessingJob.serial_job"]}
{"id": "C06", "title": "Molecule definitions are turned into a faithful composition matrix", "statement": "Reading a list of molecules, each a list of (group, count) pairs, gives the sorted list of distinct group names and a matrix whose entry (i,k) is the number of groups k in molecule i; no group is lost and no group appears that was not named.", "quantifier": "every list of molecules, any number of groups per molecule, any names, including repeated groups", "why_tests_cant": "The claim ranges over arbitrary molecule lists including repeats of one group within one molecule.", "anchors": ["despasito/input_output/read_input.py:process_bead_data"]}
{"id": "C07", "title": "Every entry of the input file reaches the calculation it was written for", "statement": "Splitting a calculation input into equation-of-state, thermodynamic and output settings routes every recognised key to exactly one place, strips the EOS prefix exactly once, and hands every other key to the calculation unchanged.", "quantifier": "every input dictionary", "why_tests_cant": "Arbitrary sets of keys; a lost key silently changes physical results.", "anchors": ["despasito/input_output/read_input.py:extract_calc_data"]}
{"id": "C08", "title": "Cross-interaction parameter matrices are symmetric and respect explicitly given values", "statement": "For every set of groups and every parameter with a combining rule, the matrix of pair parameters is symmetric, its diagonal equals the groups' own parameters, an explicitly supplied cross value is used at both (k,l) and (l,k) whichever of the two orders it was given in, and every other entry is the value of the combining rule on the two groups' parameters.", "quantifier": "every list of distinct groups, every self and cross parameter library, every supported rule", "why_tests_cant": "All libraries and all group counts; symmetric handling of the two storage orders needs every history of writes into the matrix.", "anchors": ["despasito/equations_of_state/eos_toolbox.py:cross_interaction_from_dict", "despasito/equations_of_state/eos_toolbox.py:combining_rules"]}
{"id": "C09", "title": "Combining rules are symmetric, idempotent and bounded by their arguments", "statement": "Each combining rule gives the same value when the two groups are swapped, gives the group's own value when both groups are identical, and (mean, weighted mean, geometric mean) lies between the two values for positive inputs.", "quantifier": "all positive real parameters", "why_tests_cant": "A real-valued identity and inequality over all inputs.", "anchors": ["despasito/equations_of_state/combining_rule_types.py:mean", "despasito/equations_of_state/combining_rule_types.py:geometric_mean", "despasito/equations_of_state/combining_rule_types.py:volumetric_geometric_mean", "despasito/equations_of_state/combining_rule_types.py:weighted_mean", "despasito/equations_of_state/combining_rule_types.py:mie_exponent", "despasito/equations_of_state/combining_rule_types.py:square_well_berthelot"]}
{"id": "C10", "title": "Molecular weight is the sum over groups", "statement": "The molar mass of each molecule is the sum over groups of count times group mass, so it is additive when molecules are concatenated and independent of the order of groups; a missing group mass is an error rather than a zero.", "quantifier": "all composition matrices and mass libraries", "why_tests_cant": "All matrices and libraries.", "anchors": ["despasito/equations_of_state/eos_toolbox.py:calc_massi"]}
{"id": "C11", "title": "Bound checking yields a range inside the physically allowed range", "statement": "Checking user bounds for a fitted parameter returns a lower and an upper bound that both lie within the allowed range of that parameter, leaves bounds already inside untouched, is idempotent, returns lower ≤ upper whenever the user's were ordered, and rejects parameters it does not know.", "quantifier": "every parameter type, every pair of numeric bounds", "why_tests_cant": "All real pairs; the branches interact.", "anchors": ["despasito/equations_of_state/interface.py:EosTemplate.check_bounds", "despasito/equations_of_state/saft/saft.py:EosType.check_bounds"]}
{"id": "C12", "title": "A fitted parameter that was written is the parameter that is read back, and nothing else changes", "statement": "After updating one self or cross parameter, reading it back (from either group, for a cross parameter) gives the new value, and every other parameter still reads as before; any sequence of updates behaves like a map from unordered pairs to the last value written.", "quantifier": "every sequence of parameter updates, every library", "why_tests_cant": "A statement over all histories of updates.", "anchors": ["despasito/equations_of_state/interface.py:EosTemplate.update_parameter", "despasito/equations_of_state/interface.py:EosTemplate.guess_parameters"]}
{"id": "C13", "title": "Cubic EOS: parameters refreshed after any history equal those of a freshly built EOS", "statement": "After any sequence of parameter updates, refreshes and evaluations, followed by a refresh, the Peng-Robinson object yields the same results as a new object built from the current library.", "quantifier": "every history of updates, refreshes and evaluations", "why_tests_cant": "Histories are unbounded and the caches interact.", "anchors": ["despasito/equations_of_state/cubic/peng_robinson.py:EosType.parameter_refresh", "despasito/equations_of_state/cubic/peng_robinson.py:EosType.update_parameter", "despasito/equations_of_state/cubic/peng_robinson.py:EosType._calc_temp_dependent_parameters"]}
{"id": "C14", "title": "Peng-Robinson pressure is finite and well defined up to the reported maximum density", "statement": "For every state with positive covolume, every density between 0 and the reported maximum density (packing < 1) keeps both denominators of the pressure positive, the pressure tends to the ideal-gas value RTρ as density goes to zero, and the pressure solves the Peng-Robinson cubic in the compressibility factor.", "quantifier": "all positive parameters, temperatures, compositions and densities up to the maximum", "why_tests_cant": "A real inequality and identity over a continuum.", "anchors": ["despasito/equations_of_state/cubic/peng_robinson.py:EosType.pressure", "despasito/equations_of_state/cubic/peng_robinson.py:EosType.density_max"]}
{"id": "C15", "title": "Peng-Robinson fugacity is thermodynamically consistent with its pressure", "statement": "There is one residual Helmholtz energy such that, for every mixture, the pressure is its volume derivative and the logarithm of the returned fugacity coefficient of each component is its derivative with respect to the amount of that component minus ln Z, with Z from the same pressure; the logarithm tends to 0 as density goes to 0; and for a pure component equal fugacity coefficients at equal pressure are equivalent to the equal-area rule.", "quantifier": "all mixtures and all states below the maximum density with positive pressure", "why_tests_cant": "An identity between analytic expressions over a continuum of states and all numbers of components.", "anchors": ["despasito/equations_of_state/cubic/peng_robinson.py:EosType.fugacity_coefficient", "despasito/equations_of_state/cubic/peng_robinson.py:EosType.pressure"]}
{"id": "C16", "title": "Mixture results do not depend on how components are listed or split", "statement": "Peng-Robinson mixture parameters, pressure and maximum density are unchanged when components are permuted, and splitting a component into two identical ones (with zero interaction coefficient) leaves them unchanged.", "quantifier": "all component lists of any length", "why_tests_cant": "Unbounded component counts and all permutations.", "anchors": ["despasito/equations_of_state/cubic/peng_robinson.py:EosType._calc_mixed_parameters"]}
{"id": "C17", "title": "SAFT segment fractions are a probability distribution", "statement": "For every composition with positive segment total, the segment fractions are non-negative and sum to one, the pair-fraction matrix is symmetric and sums to one, and the conversion factor is linear in composition; scaling all mole fractions leaves segment fractions unchanged.", "quantifier": "all mole-fraction vectors, composition matrices and group libraries", "why_tests_cant": "All sizes and real values.", "anchors": ["despasito/equations_of_state/saft/saft_toolbox.py:calc_composition_dependent_variables"]}
{"id": "C18", "title": "The maximum density reported by SAFT-γ-Mie is exactly the density at the requested packing fraction", "statement": "The packing fraction is linear in density, and evaluating it at the reported maximum density returns exactly the requested maximum packing; below it the packing fraction is smaller.", "quantifier": "all states with positive diameters", "why_tests_cant": "Identity over a continuum.", "anchors": ["despasito/equations_of_state/saft/gamma_mie.py:SaftType.density_max", "despasito/equations_of_state/saft/saft_toolbox.py:calc_zetax"]}
{"id": "C19", "title": "Analytic density derivatives used in the chain term are the derivatives of the coded functions", "statement": "The coded expressions for the density derivatives of the hard-sphere compressibility, of the first-order perturbation term and of the B function are the exact derivatives of the coded functions they claim to differentiate, at every density with packing fraction below one.", "quantifier": "all densities below close packing, all positive parameters", "why_tests_cant": "A derivative identity over a continuum; finite differences can only sample it.", "anchors": ["despasito/equations_of_state/saft/saft_toolbox.py:calc_KHS", "despasito/equations_of_state/saft/compiled_modules/ext_gamma_mie_python.py:calc_a1s", "despasito/equations_of_state/saft/compiled_modules/ext_gamma_mie_python.py:calc_da1sii_drhos", "despasito/equations_of_state/saft/compiled_modules/ext_gamma_mie_python.py:calc_Bkl", "despasito/equations_of_state/saft/compiled_modules/ext_gamma_mie_python.py:calc_dBkl_drhos", "despasito/equations_of_state/saft/compiled_modules/ext_gamma_mie_python.py:calc_da2ii_1pchi_drhos"]}
{"id": "C20", "title": "Hard-sphere compressibility stays in (0,1]", "statement": "For packing fractions in [0,1) the isothermal compressibility factor is positive and at most one, equal to one exactly at zero packing, and decreasing in packing.", "quantifier": "all packing fractions in [0,1)", "why_tests_cant": "Continuum.", "anchors": ["despasito/equations_of_state/saft/saft_toolbox.py:calc_KHS"]}
{"id": "C21", "title": "Unbonded fractions stay physical during and after the association iteration", "statement": "For any non-negative association strengths, densities, compositions and site numbers, each fraction of unbonded sites stays in (0,1] at every iteration and for every density in the array, so the association Helmholtz energy is defined and non-positive.", "quantifier": "all site lists, densities, strengths, iteration counts and damping in (0,1]", "why_tests_cant": "An invariant over every iteration and every size.", "anchors": ["despasito/equations_of_state/saft/compiled_modules/ext_Aassoc_python.py:calc_Xika", "despasito/equations_of_state/saft/saft.py:EosType.Aassoc"]}
{"id": "C22", "title": "The association result at one density does not depend on the other densities in the array", "statement": "Evaluating association for an array of densities gives for each density the value that evaluating it alone would give.", "quantifier": "every array of densities", "why_tests_cant": "Depends on every prefix of the array.", "anchors": ["despasito/equations_of_state/saft/compiled_modules/ext_Aassoc_python.py:calc_Xika"]}
{"id": "C23", "title": "Association sites are enumerated exactly once", "statement": "The list of (component, group, site) triples contains exactly the triples with a non-zero group count and non-zero site number, each exactly once, in lexicographic order.", "quantifier": "all composition and site matrices", "why_tests_cant": "All sizes.", "anchors": ["despasito/equations_of_state/saft/Aassoc.py:assoc_site_indices"]}
{"id": "C24", "title": "Site-count matrix is rectangular and faithful", "statement": "Discovering association sites over the groups gives a rectangular matrix with one column per distinct site name, whose entry is the declared number of that site on that group and zero when undeclared, regardless of the order in which names are discovered.", "quantifier": "all group libraries", "why_tests_cant": "All libraries and name orders.", "anchors": ["despasito/equations_of_state/saft/Aassoc.py:initiate_assoc_matrices"]}
{"id": "C25", "title": "Association energy and volume matrices are symmetric under exchange of the two sites", "statement": "The strength between site a on group k and site b on group l equals that between site b on l and site a on k, for every library of self and cross association parameters.", "quantifier": "all libraries", "why_tests_cant": "A property of every sequence of writes into a four-index array.", "anchors": ["despasito/equations_of_state/saft/Aassoc.py:calc_assoc_matrices"]}
{"id": "C26", "title": "SAFT-γ-Mie: after updating parameters and refreshing, results equal those of a freshly built EOS", "statement": "For every history of evaluations at any temperature and composition, parameter updates and refreshes that ends with a refresh, evaluating at any temperature and composition gives the same result as a new object built from the current parameters.", "quantifier": "every history", "why_tests_cant": "Histories are unbounded; the caches are keyed by temperature and composition only.", "anchors": ["despasito/equations_of_state/saft/gamma_mie.py:SaftType.parameter_refresh", "despasito/equations_of_state/saft/gamma_mie.py:SaftType._check_temperature_dependent_parameters"]}
{"id": "C27", "title": "SAFT-γ-SW: after updating parameters and refreshing, results equal those of a freshly built EOS", "statement": "Same statement for the square-well variant.", "quantifier": "every history", "why_tests_cant": "Histories are unbounded.", "anchors": ["despasito/equations_of_state/saft/gamma_sw.py:SaftType.parameter_refresh", "despasito/equations_of_state/saft/gamma_sw.py:SaftType._check_composition_dependent_parameters"]}
{"id": "C28", "title": "Association parameters changed during fitting take effect", "statement": "After updating an association parameter and refreshing, the association contribution is computed from the new parameter, at every temperature including the one evaluated last, and even when all association energies were zero when the object was built.", "quantifier": "every history", "why_tests_cant": "Cache invalidation over all histories.", "anchors": ["despasito/equations_of_state/saft/saft.py:EosType.Aassoc", "despasito/equations_of_state/saft/saft.py:EosType.parameter_refresh"]}
{"id": "C29", "title": "Invalid densities are rejected before they reach the equation of state", "statement": "A density argument that is empty, contains NaN or contains a negative value raises ValueError; every other argument is passed on unchanged (a scalar as an array of one).", "quantifier": "all density arguments", "why_tests_cant": "All arrays.", "anchors": ["despasito/equations_of_state/saft/saft.py:EosType._check_density", "despasito/equations_of_state/saft/gamma_mie.py:SaftType._check_density", "despasito/equations_of_state/saft/gamma_sw.py:SaftType._check_density"]}
{"id": "C30", "title": "New mole fractions follow the fugacity ratios", "statement": "Updating mole fractions from fugacity coefficients multiplies every entry with its own ratio of coefficients: the result is non-negative, components absent from the parent phase stay absent and no other disappears, at equal coefficients the composition is unchanged, the vapour and the liquid update undo each other, and the distance of the sum from one is the equilibrium objective; NaN coefficients, an unknown phase and a composition not adding up to one are rejected.", "quantifier": "all compositions and positive fugacity coefficients, any number of components", "why_tests_cant": "Continuum and any number of components.", "anchors": ["despasito/thermodynamics/calc.py:calc_new_mole_fractions", "despasito/thermodynamics/calc.py:equilibrium_objective"]}
{"id": "C31", "title": "Binary flash satisfies the material balance", "statement": "Given K-values on opposite sides of one, the liquid and vapour compositions returned by the flash are in [0,1], each sums to one, and satisfy y_i = K_i x_i.", "quantifier": "all pairs of K values straddling one", "why_tests_cant": "Continuum.", "anchors": ["despasito/thermodynamics/calc.py:calc_flash", "despasito/thermodynamics/calc.py:constrain_Ki"]}
{"id": "C32", "title": "K-value constraint keeps the flash solvable", "statement": "Constraining K-values during the flash yields a pair on opposite sides of one (so that the compositions are within [0,1]) or flags failure.", "quantifier": "all K pairs and all histories of previous K pairs", "why_tests_cant": "Continuum and histories.", "anchors": ["despasito/thermodynamics/calc.py:constrain_Ki"]}
{"id": "C33", "title": "Density search returns a density together with a truthful phase flag", "statement": "For every isotherm shape found by the root search, vapour and liquid density calculations return a density/flag pair where flag 0 means a vapour root, 1 a liquid root, 2 a critical fluid, 3 failure (NaN density) and 4 an ideal gas; no shape leaves the flag undefined.", "quantifier": "every list of extrema and roots of the isotherm", "why_tests_cant": "Every isotherm shape, many not reachable with the test EOS parameters.", "anchors": ["despasito/thermodynamics/calc.py:calc_vapor_density", "despasito/thermodynamics/calc.py:calc_liquid_density"]}
{"id": "C34", "title": "Fugacity coefficients of an ideal or failed phase are reported consistently", "statement": "When the phase search reports an ideal gas, all fugacity coefficients are one and the density is zero; when it reports failure, the fugacity coefficients are NaN with one entry per component.", "quantifier": "every number of components and every phase flag", "why_tests_cant": "All component counts.", "anchors": ["despasito/thermodynamics/calc.py:calc_vapor_fugacity_coefficient", "despasito/thermodynamics/calc.py:calc_liquid_fugacity_coefficient"]}
{"id": "C35", "title": "A failing point never disturbs the other points of a batch", "statement": "In every multi-point calculation, the result at point i depends only on the inputs of point i and the shared options; a failure at one point is reported as NaN with failure flags at that index and leaves all other results as if the point were not there.", "quantifier": "every list of points and every subset of failing points", "why_tests_cant": "All subsets of failures and all orders.", "anchors": ["despasito/thermodynamics/calculation_types.py:bubble_pressure", "despasito/thermodynamics/calculation_types.py:_bubble_pressure_wrapper", "despasito/thermodynamics/calculation_types.py:dew_pressure", "despasito/thermodynamics/calculation_types.py:verify_eos"]}
{"id": "C36", "title": "Solver options apply to every point", "statement": "The solver method a user selects in the pressure options is applied to every point of the batch, in serial and in parallel alike.", "quantifier": "every list of points", "why_tests_cant": "Depends on the position in the batch.", "anchors": ["despasito/thermodynamics/calculation_types.py:_bubble_pressure_wrapper", "despasito/thermodynamics/calculation_types.py:_dew_pressure_wrapper"]}
{"id": "C37", "title": "Activity-coefficient mode is decided by what was supplied, and a given pressure is used", "statement": "Which of flash, dew-point, bubble-point or direct evaluation is used depends only on which of the compositions and pressure were supplied, every combination has exactly one mode or is rejected, and a supplied pressure is used as initial guess when compositions are being solved for.", "quantifier": "all combinations of supplied inputs", "why_tests_cant": "Whole decision table together with the effect on options.", "anchors": ["despasito/thermodynamics/calculation_types.py:activity_coefficient"]}
{"id": "C38", "title": "Bubble and dew calculations do not depend on previous calculations", "statement": "The result of a bubble- or dew-point calculation is a function of its own inputs: earlier calculations in the same process do not change it.", "quantifier": "every history of calls", "why_tests_cant": "Requires all histories.", "anchors": ["despasito/thermodynamics/calc.py:calc_dew_pressure", "despasito/thermodynamics/calc.py:calc_bubble_pressure", "despasito/thermodynamics/calc.py:objective_dew_pressure"]}
{"id": "C39", "title": "Objective values seen by an optimiser are never NaN", "statement": "For every parameter vector, every set of data sets, and whatever the data sets return or raise, the total objective is a number or infinity, never NaN; a NaN parameter or a raising data set gives infinity.", "quantifier": "all parameter vectors and all data-set behaviours", "why_tests_cant": "All behaviours of arbitrary data sets.", "anchors": ["despasito/parameter_fitting/fit_functions.py:compute_obj"]}
{"id": "C40", "title": "Bound penalty is zero inside the bounds, positive and growing outside", "statement": "The total objective equals the sum of the data-set objectives when all parameters are within bounds, and is larger when any is outside, growing with the violation.", "quantifier": "all parameter vectors and bounds", "why_tests_cant": "Continuum.", "anchors": ["despasito/parameter_fitting/fit_functions.py:compute_obj"]}
{"id": "C41", "title": "Objective of one data set: non-negative, zero exactly for a perfect match, insensitive to missing points", "statement": "For non-negative weights the deviation measures are non-negative; they vanish exactly when every compared point with positive weight matches; points with NaN are excluded from the average, and an unknown measure is rejected.", "quantifier": "all data and prediction vectors and weights", "why_tests_cant": "Continuum and all missing-point patterns.", "anchors": ["despasito/parameter_fitting/fit_functions.py:obj_function_form"]}
{"id": "C42", "title": "A perfect fit is the best fit", "statement": "If model predictions agree exactly with every datum, the data-set objective is the smallest possible value.", "quantifier": "all data sets", "why_tests_cant": "All data sets; requires the exact zero case.", "anchors": ["despasito/parameter_fitting/data_classes/TLVE.py:Data.objective", "despasito/parameter_fitting/data_classes/saturation_properties.py:Data.objective", "despasito/parameter_fitting/data_classes/flash.py:Data.objective"]}
{"id": "C43", "title": "Every fitted parameter has bounds, and user bounds are attached to the right parameter", "statement": "Consolidating the fitting input yields exactly one bound pair per fitted parameter in order, equal to the user's for that name and the default otherwise; settings that are not bounds survive unchanged.", "quantifier": "all parameter lists and option dictionaries", "why_tests_cant": "Arbitrary dictionaries.", "anchors": ["despasito/parameter_fitting/fit_functions.py:consolidate_bounds", "despasito/parameter_fitting/fit_functions.py:reformat_output"]}
{"id": "C44", "title": "Valid constraint types are accepted and invalid ones rejected", "statement": "Initialising optimisation constraints accepts exactly the documented constraint types.", "quantifier": "all type strings and constraint classes", "why_tests_cant": "All strings.", "anchors": ["despasito/parameter_fitting/fit_functions.py:initialize_constraints"]}
{"id": "C45", "title": "Grid minimisation returns the best grid result", "statement": "The result of a grid search is the candidate with the smallest objective among all grid starts (the first one on ties), failures never win over finite results, and with split dimensions the frozen parameters are reported in their original positions.", "quantifier": "all candidate lists", "why_tests_cant": "All candidate lists and failure patterns.", "anchors": ["despasito/parameter_fitting/global_methods.py:grid_minimization", "despasito/parameter_fitting/global_methods.py:_grid_minimization_wrapper"]}
{"id": "C46", "title": "Basin hopping only accepts physical steps", "statement": "A step is accepted only if all parameters are within bounds and the objective is a finite number, and proposed steps are non-negative.", "quantifier": "all steps", "why_tests_cant": "All real vectors and random draws.", "anchors": ["despasito/parameter_fitting/global_methods.py:_BasinBounds", "despasito/parameter_fitting/global_methods.py:_BasinStep"]}
{"id": "C47", "title": "Intermediate fit results never overwrite an existing file and are recorded in order", "statement": "Writing of intermediate results chooses a file name that does not exist yet, numbers results consecutively, and records exactly the accepted or sufficiently good results.", "quantifier": "every directory content and every sequence of results", "why_tests_cant": "All directory states and histories.", "anchors": ["despasito/parameter_fitting/global_methods.py:_WriteParameterResults"]}
{"id": "C48", "title": "Requested calculations and options are dispatched as documented", "statement": "A thermodynamic calculation request with no type is rejected, an unknown type is rejected, every failure inside is reported as one exception type, and the command-line flags enable what they name.", "quantifier": "all requests and flags", "why_tests_cant": "Decision table over all names and flags.", "anchors": ["despasito/thermodynamics/__init__.py:thermo", "despasito/main.py:get_parser", "despasito/main.py:run", "despasito/__main__.py"]}
{"id": "C49", "title": "Insignificant components are removed consistently", "statement": "Removing components of negligible amount keeps the remaining mole fractions and masses aligned and in order, never removes a significant component, and leaves a composition without negligible components unchanged.", "quantifier": "all compositions", "why_tests_cant": "All lengths and patterns.", "anchors": ["despasito/equations_of_state/eos_toolbox.py:remove_insignificant_components"]}
{"id": "C50", "title": "Default bead parameters are filled without changing supplied ones", "statement": "Checking a group library adds missing optional parameters with their defaults, leaves supplied ones unchanged, rejects a group that lacks a required parameter, and does not modify the caller's library.", "quantifier": "all group libraries", "why_tests_cant": "All libraries.", "anchors": ["despasito/equations_of_state/eos_toolbox.py:check_bead_parameters"]}
{"id": "C51", "title": "Bounds handed to a bounded minimiser are honoured", "statement": "When a bounded minimiser (TNC, L-BFGS-B, SLSQP) is selected for a root problem, every pair of bounds the user gave is passed on to it, whatever the number of unknowns.", "quantifier": "all methods, guesses and bounds lists", "why_tests_cant": "All numbers of unknowns.", "anchors": ["despasito/utils/general_toolbox.py:solve_root"]}
{"id": "C52", "title": "A fitting input is split into data sets and settings without loss, and each data set gets a complete EOS description", "statement": "Every entry of a fitting input is either recognised as a data set and converted, or passed on unchanged; a data set keeps the EOS settings it states itself and receives all others from the common part; an input without a data set is rejected.", "quantifier": "all fitting inputs", "why_tests_cant": "Arbitrary dictionaries and orders.", "anchors": ["despasito/input_output/read_input.py:process_param_fit_inputs", "despasito/input_output/read_input.py:extract_calc_data"]}
{"id": "C53", "title": "A combining rule evaluated at a temperature uses that temperature", "statement": "When a temperature is handed to the multipole combining rule, the multipole interaction is evaluated at that temperature, and an unknown mode is rejected whether or not a temperature is given.", "quantifier": "all parameters, temperatures and mode names", "why_tests_cant": "Continuum of temperatures; the rule has several fallbacks.", "anchors": ["despasito/equations_of_state/combining_rule_types.py:multipole"]}
{"id": "C54", "title": "Arrays of group parameters line up with the list of groups", "statement": "Extracting one parameter from the group library gives one entry per group in the order of the group list; a group without the parameter gets the stated default, and without a default the extraction is rejected.", "quantifier": "all group lists and libraries", "why_tests_cant": "All lists.", "anchors": ["despasito/equations_of_state/eos_toolbox.py:extract_property"]}
{"id": "C55", "title": "The initial guess of a fitted parameter is reproducible", "statement": "The guess for a fitted parameter is the value in the library when there is one, and otherwise a value determined by the allowed range of the parameter only, inside that range.", "quantifier": "all libraries, parameters and memory contents", "why_tests_cant": "Depends on uninitialised memory, which a test does not control.", "anchors": ["despasito/equations_of_state/interface.py:EosTemplate.guess_parameters"]}
{"id": "C56", "title": "Splitting a substance into two identical components changes nothing", "statement": "Describing one substance as two components with identical groups and any split of its mole fraction leaves the hard-sphere Helmholtz energy unchanged.", "quantifier": "all substances, splits, densities and temperatures", "why_tests_cant": "Continuum of splits and states.", "anchors": ["despasito/equations_of_state/saft/gamma_mie.py:SaftType.Ahard_sphere", "despasito/equations_of_state/saft/gamma_sw.py:SaftType.Ahard_sphere"]}
{"id": "C57", "title": "The square-well maximum density is the density at the requested packing", "statement": "The maximum density of the square-well equation of state is the density at which the packing fraction its own energy expressions use equals the requested maximum packing fraction, so no density below it is over-packed.", "quantifier": "all compositions, group parameters and packing fractions", "why_tests_cant": "Continuum of parameters.", "anchors": ["despasito/equations_of_state/saft/gamma_sw.py:SaftType.density_max"]}
{"id": "C58", "title": "The Mie prefactor normalises the well depth", "statement": "With the coded prefactor the Mie potential is never below minus epsilon for any distance, reaches minus epsilon at the position of its minimum, and a vanishing repulsive exponent is rejected.", "quantifier": "all exponents lambda_r > lambda_a > 0 and distances", "why_tests_cant": "Continuum of exponents and distances.", "anchors": ["despasito/equations_of_state/saft/compiled_modules/ext_gamma_mie_python.py:prefactor", "despasito/equations_of_state/saft/saft_toolbox.py:_dkk_int"]}
{"id": "C59", "title": "Square-well analytic derivatives are the derivatives of the functions they name", "statement": "The coded derivatives of the effective packing fraction with respect to packing and range, and the contact value derivative, are exact derivatives, and the second-order term equals one half of the compressibility times epsilon times density times the density derivative of the first-order term.", "quantifier": "all packings, ranges and parameters at which the contact value is defined, among them all accepted packings with ranges up to 2.682 (see C151)", "why_tests_cant": "Continuum of values.", "anchors": ["despasito/equations_of_state/saft/gamma_sw.py:SaftType._dzetaeff_dzetax", "despasito/equations_of_state/saft/gamma_sw.py:SaftType.effective_packing_fraction", "despasito/equations_of_state/saft/gamma_sw.py:SaftType.calc_gSW", "despasito/equations_of_state/saft/gamma_sw.py:SaftType.Asecond_order"]}
{"id": "C60", "title": "The effective hard-sphere diameter is physical", "statement": "The quadrature hard-sphere diameter lies strictly between zero and sigma, decreases with temperature, increases with the well depth and is proportional to sigma.", "quantifier": "all temperatures, well depths and exponents", "why_tests_cant": "Continuum of parameters through a 40-point quadrature table.", "anchors": ["despasito/equations_of_state/saft/saft_toolbox.py:calc_dkk", "despasito/equations_of_state/saft/saft_toolbox.py:calc_hard_sphere_matricies"]}
{"id": "C61", "title": "The bonding distance between two components depends on those two components only", "statement": "The mean bonding distance used in the bonding volume of components i and j is determined by the properties of i and of j and is symmetric in them.", "quantifier": "all numbers of components and parameters", "why_tests_cant": "All sizes.", "anchors": ["despasito/equations_of_state/saft/gamma_sw.py:SaftType.calc_Kijklab", "despasito/equations_of_state/saft/gamma_mie.py:SaftType.calc_Kijklab"]}
{"id": "C62", "title": "The association solve returns the solution of the mass-action equations", "statement": "For non-negative association strengths the mass-action equations have exactly one positive solution, the undamped iteration approaches it at a geometric rate, and the fractions that are returned agree with it to the requested tolerance or the failure is reported.", "quantifier": "all strengths, densities and site lists", "why_tests_cant": "Continuum of strengths; convergence is not visible from a sampled result.", "anchors": ["despasito/equations_of_state/saft/compiled_modules/ext_Aassoc_python.py:calc_Xika", "despasito/equations_of_state/saft/Aassoc.py:_calc_Xika_wrap", "despasito/equations_of_state/saft/saft.py:EosType.Aassoc"]}
{"id": "C63", "title": "Self-interacting sites give physical unbonded fractions", "statement": "For any library accepted by the association set-up, including one in which a site interacts with itself, the fraction of unbonded sites lies in (0,1].", "quantifier": "all libraries and temperatures", "why_tests_cant": "Continuum of energies; the sign convention is only visible for self-interacting sites.", "anchors": ["despasito/equations_of_state/saft/Aassoc.py:calc_assoc_matrices", "despasito/equations_of_state/saft/compiled_modules/ext_Aassoc_python.py:calc_Xika"]}
{"id": "C64", "title": "Bonding volumes are physical", "statement": "The bonding volume computed from site distances is non-negative for all distances, vanishes at contact of the reach of the sites, is zero when the sites cannot reach each other, and scales with the cube of lengths.", "quantifier": "all diameters, site distances and bonding ranges", "why_tests_cant": "Continuum of lengths.", "anchors": ["despasito/equations_of_state/saft/Aassoc.py:calc_bonding_volume"]}
{"id": "C65", "title": "Cross association parameters in the library take effect for exactly the pair they name", "statement": "A cross association parameter given in the library for site a of group k and site b of group l is the one used for that pair and for no other, whatever the order in which the groups are listed.", "quantifier": "all libraries and group orders", "why_tests_cant": "All orders of groups and sites.", "anchors": ["despasito/equations_of_state/saft/Aassoc.py:calc_assoc_matrices"]}
{"id": "C66", "title": "Implementation flags select the implementation they name", "statement": "The numba, cython and python flags choose the corresponding implementation of the association solve and of the Mie terms, the same for both, and a flag whose implementation is missing is reported.", "quantifier": "all flag combinations and installed modules", "why_tests_cant": "Depends on which compiled modules are installed.", "anchors": ["despasito/equations_of_state/saft/Aassoc.py", "despasito/equations_of_state/saft/gamma_mie.py"]}
{"id": "C67", "title": "Optional arguments of the association matrix construction can be left out", "statement": "Calling the construction of association matrices without its optional arguments derives them from the library and succeeds whenever the library is valid.", "quantifier": "all libraries", "why_tests_cant": "All libraries.", "anchors": ["despasito/equations_of_state/saft/Aassoc.py:calc_assoc_matrices"]}
{"id": "C68", "title": "The flash reports its convergence truthfully", "statement": "An objective value below the tolerance returned by the flash means that the K-values behind the returned compositions agree with the ratio of the fugacity coefficients at these compositions.", "quantifier": "all fugacity functions, starting values and iteration limits", "why_tests_cant": "Depends on what the very last iteration does and on arrays that share memory.", "anchors": ["despasito/thermodynamics/calc.py:calc_flash"]}
{"id": "C70", "title": "A flash that collapses to equal phases is restarted from both sides", "statement": "When the K-values of the flash collapse to one, the first restart begins with the first component in the vapour and the second restart with the first component in the liquid.", "quantifier": "all K-values", "why_tests_cant": "Restarts happen only near critical points.", "anchors": ["despasito/thermodynamics/calc.py:calc_flash"]}
{"id": "C71", "title": "Every point of a batch gets the user's values, with the documented defaults for what was left out", "statement": "For each calculation type, point i is run with the i-th value the user supplied, a single supplied value is used for all points, and whatever was left out has its documented default; lists of different lengths are rejected.", "quantifier": "every combination of supplied and omitted inputs, every number of points", "why_tests_cant": "All combinations of lengths and omissions.", "anchors": ["despasito/thermodynamics/calculation_types.py:flash", "despasito/thermodynamics/calculation_types.py:saturation_properties", "despasito/thermodynamics/calculation_types.py:liquid_properties", "despasito/thermodynamics/calculation_types.py:solubility_parameter", "despasito/thermodynamics/calculation_types.py:verify_eos", "despasito/thermodynamics/calculation_types.py:bubble_pressure", "despasito/thermodynamics/calculation_types.py:dew_pressure"]}
{"id": "C72", "title": "Composition and flags returned by a bubble or dew calculation are those of the solved state", "statement": "The composition returned with a bubble or dew pressure is the one the inner loop gives at that pressure, and the phase flags are those of the two compositions at that pressure.", "quantifier": "every mixture, temperature, thermodynamic model and root finder", "why_tests_cant": "Relates the output to the internal solution for every behaviour of the solver.", "anchors": ["despasito/thermodynamics/calc.py:calc_dew_pressure", "despasito/thermodynamics/calc.py:calc_bubble_pressure"]}
{"id": "C73", "title": "A failing prediction never makes a parameter set look better", "statement": "Replacing the predictions of one measured quantity by failures (NaN) never lowers the objective of the data set.", "quantifier": "all data sets and all sets of failing quantities", "why_tests_cant": "All combinations of failures; the sum is taken over what is left.", "anchors": ["despasito/parameter_fitting/data_classes/saturation_properties.py:Data.objective", "despasito/parameter_fitting/data_classes/TLVE.py:Data.objective", "despasito/parameter_fitting/data_classes/flash.py:Data.objective", "despasito/parameter_fitting/fit_functions.py:obj_function_form"]}
{"id": "C74", "title": "Density options of a data set reach its calculations", "statement": "The density options a user gives for a data set are the ones used in its calculations, and missing ones have the documented defaults.", "quantifier": "all data classes and all option dictionaries", "why_tests_cant": "Arbitrary dictionaries for each data class.", "anchors": ["despasito/parameter_fitting/data_classes/TLVE.py:Data.__init__", "despasito/parameter_fitting/data_classes/flash.py:Data.__init__", "despasito/parameter_fitting/data_classes/liquid_density.py:Data.__init__", "despasito/parameter_fitting/data_classes/saturation_properties.py:Data.__init__", "despasito/parameter_fitting/data_classes/solubility_parameter.py:Data.__init__"]}
{"id": "C75", "title": "A fit leaves its arguments unchanged, so that the same call again does the same", "statement": "Fitting uses the requested global optimisation method, completes the data sets with its keyword arguments without replacing anything, and neither changes the caller's dictionaries nor remembers anything of earlier calls.", "quantifier": "all option dictionaries and sequences of calls", "why_tests_cant": "Sequences of calls sharing arguments.", "anchors": ["despasito/parameter_fitting/__init__.py:fit"]}
{"id": "C76", "title": "A fitted parameter's name means the same parameter everywhere", "statement": "The name of a fitted parameter addresses the same parameter and groups when it is guessed and when it is updated; every group can be named; a list of names that is rejected changes nothing.", "quantifier": "all names, group names and lists of names", "why_tests_cant": "All strings.", "anchors": ["despasito/parameter_fitting/fit_functions.py:initial_guess", "despasito/parameter_fitting/interface.py:ExpDataTemplate.update_parameters"]}
{"id": "C77", "title": "Minimiser options given by the user are used", "statement": "Local minimiser options of the user override the defaults one by one and reach the minimiser, in every global method that has one.", "quantifier": "all option dictionaries", "why_tests_cant": "Arbitrary nested dictionaries.", "anchors": ["despasito/parameter_fitting/global_methods.py:grid_minimization", "despasito/parameter_fitting/global_methods.py:_grid_minimization_wrapper", "despasito/parameter_fitting/global_methods.py:shgo", "despasito/parameter_fitting/global_methods.py:basinhopping"]}
{"id": "C78", "title": "Conditions missing in a data set have their standard values", "statement": "A data set without temperature or pressure is evaluated at the standard temperature or pressure in all its states.", "quantifier": "all data sets of all classes", "why_tests_cant": "All combinations of omitted entries.", "anchors": ["despasito/parameter_fitting/data_classes/TLVE.py:Data.__init__", "despasito/parameter_fitting/data_classes/flash.py:Data.__init__", "despasito/parameter_fitting/data_classes/liquid_density.py:Data.__init__", "despasito/parameter_fitting/data_classes/saturation_properties.py:Data.__init__", "despasito/parameter_fitting/data_classes/solubility_parameter.py:Data.__init__"]}
{"id": "C79", "title": "Predictions are tabulated where the objective function looks for them", "statement": "In the table made of the outputs of a calculation the columns of each output follow those of the outputs before it, one for each component in order, and each column holds the states in order.", "quantifier": "all numbers of outputs, components and states", "why_tests_cant": "All shapes.", "anchors": ["despasito/parameter_fitting/fit_functions.py:reformat_output"]}
{"id": "C80", "title": "Measured values reach the calculation under the right name", "statement": "Every temperature, pressure, composition and measured property of a data set is stored under the name the calculation uses, repeated over all states if it is a single one.", "quantifier": "all data sets of all classes", "why_tests_cant": "All combinations and lengths.", "anchors": ["despasito/parameter_fitting/data_classes/TLVE.py:Data.__init__", "despasito/parameter_fitting/data_classes/flash.py:Data.__init__", "despasito/parameter_fitting/data_classes/liquid_density.py:Data.__init__", "despasito/parameter_fitting/data_classes/saturation_properties.py:Data.__init__", "despasito/parameter_fitting/data_classes/solubility_parameter.py:Data.__init__"]}
{"id": "C81", "title": "Data sets without anything to compare with are rejected, and all others accepted", "statement": "A data set is accepted when it has the conditions and at least one measured property that the objective of its class uses, and is rejected otherwise.", "quantifier": "all data sets of all classes", "why_tests_cant": "All combinations of entries.", "anchors": ["despasito/parameter_fitting/data_classes/TLVE.py:Data.__init__", "despasito/parameter_fitting/data_classes/flash.py:Data.__init__", "despasito/parameter_fitting/data_classes/liquid_density.py:Data.__init__", "despasito/parameter_fitting/data_classes/saturation_properties.py:Data.__init__", "despasito/parameter_fitting/data_classes/solubility_parameter.py:Data.__init__"]}
{"id": "C82", "title": "Without a calculation type the class's own calculation is used", "statement": "A data set without calculation type uses the documented calculation of its class; for temperature-dependent vapour-liquid data that is bubble pressure when liquid compositions are given and dew pressure when only vapour compositions are.", "quantifier": "all data sets", "why_tests_cant": "All combinations of entries and sizes.", "anchors": ["despasito/parameter_fitting/data_classes/TLVE.py:Data.__init__", "despasito/parameter_fitting/data_classes/flash.py:Data.__init__"]}
{"id": "C83", "title": "The grid of starting points covers the bounds", "statement": "A grid search starts from the requested number of values for each parameter in all combinations, inside the bounds and including every corner of the box they form.", "quantifier": "all bounds, numbers of parameters and numbers of values from two on", "why_tests_cant": "All boxes and grid sizes.", "anchors": ["despasito/parameter_fitting/global_methods.py:grid_minimization"]}
{"id": "C84", "title": "The equation of state named in the input is the one used", "statement": "Each documented name gives its equation of state, and every other name is rejected with an error about the name.", "quantifier": "all names", "why_tests_cant": "All strings.", "anchors": ["despasito/equations_of_state/__init__.py:initiate_eos", "despasito/equations_of_state/saft/saft.py:saft_type"]}
{"id": "C85", "title": "Logging handlers follow the request", "statement": "After setting up logging there is a console handler and a file handler exactly as requested: a handler that exists is kept, one given as False is removed, one that is not mentioned is left alone.", "quantifier": "all arguments and all existing handlers", "why_tests_cant": "All histories of calls.", "anchors": ["despasito/__init__.py:initiate_logger"]}
{"id": "C86", "title": "Settings of one data set take precedence over general settings", "statement": "General fitting settings reach every data set that does not have its own, and a data set's own setting is used for that data set.", "quantifier": "all settings and data sets", "why_tests_cant": "All combinations of settings.", "anchors": ["despasito/main.py:run"]}
{"id": "C87", "title": "The output table holds the results", "statement": "In the file of results each property has one column for a number and one for each component of an array, row j holds the results of point j, the calculation is named in the comment, properties have their units, arrays of different lengths are refused, and each fitted parameter stands beside its own value.", "quantifier": "all results", "why_tests_cant": "All numbers of points, properties and components.", "anchors": ["despasito/input_output/write_output.py:writeout_thermo_dict", "despasito/input_output/write_output.py:writeout_fit_dict"]}
{"id": "C88", "title": "Constraints and minimiser options given to a fit reach the global method", "statement": "Constraints and minimiser options given to a fit are handed to the global method that supports them.", "quantifier": "all methods and options", "why_tests_cant": "All combinations of methods and options.", "anchors": ["despasito/parameter_fitting/__init__.py:fit", "despasito/parameter_fitting/fit_functions.py:global_minimization"]}
{"id": "C89", "title": "The pressure-volume curve is a curve", "statement": "The computed curve has at least two points, its specific volumes are positive and strictly increasing, every pressure is that of the equation of state at the density of its volume, and the densest point lies within one increment of the maximum density.", "quantifier": "all equations of state, options and maximum densities", "why_tests_cant": "All pressure functions and all option values.", "anchors": ["despasito/thermodynamics/calc.py:pressure_vs_volume_arrays"]}
{"id": "C90", "title": "Options for the range and the spacing of the curve are honoured", "statement": "The curve starts at the requested fraction of the maximum density, reaches the requested low pressure, takes no larger step of the volume than requested, and each documented option has its effect.", "quantifier": "all equations of state and options", "why_tests_cant": "All pressure functions and all option values.", "anchors": ["despasito/thermodynamics/calc.py:pressure_vs_volume_arrays"]}
{"id": "C91", "title": "The hard-sphere terms belong to one hard-sphere fluid", "statement": "The hard-sphere energy has as density derivative the pressure of the mixture equation of Boublik, Mansoori, Carnahan, Starling and Leland and is that of Carnahan and Starling when all diameters agree; the compressibility factor, the contact values and the range integrals used by the perturbation terms are those of the same fluid.", "quantifier": "all diameters, compositions and packing fractions below one, for the square-well contact value effective packing fractions other than one (see C151)", "why_tests_cant": "Real-valued identities; tests compare one stored number.", "anchors": ["despasito/equations_of_state/saft/saft_toolbox.py:_dkk_int", "despasito/equations_of_state/saft/gamma_mie.py:SaftType.Ahard_sphere", "despasito/equations_of_state/saft/gamma_mie.py:SaftType.gdHS"]}
{"id": "C92", "title": "An accepted saturation pressure is an equilibrium pressure", "statement": "A saturation pressure that is returned lies between the extrema of the pressure loop and not below the given smallest pressure, the areas cut off by it cancel within the tolerance so that the fugacity coefficients of the two phases agree, and the vapour is lighter than the liquid.", "quantifier": "all curves, splines, tolerances and equations of state", "why_tests_cant": "All curves and all results of the external minimiser.", "anchors": ["despasito/thermodynamics/calc.py:calc_saturation_properties", "despasito/thermodynamics/calc.py:objective_saturation_pressure", "despasito/thermodynamics/calc.py:pressure_vs_volume_spline"]}
{"id": "C93", "title": "Saturation is refused for mixtures and empty above the critical point", "statement": "A composition with more than one component is refused with an error about the composition; without a pressure loop the result is not a number; and every pure component with a loop gets a saturation pressure with the densities of the outermost roots.", "quantifier": "all compositions and curves", "why_tests_cant": "All compositions and curves.", "anchors": ["despasito/thermodynamics/calc.py:calc_saturation_properties"]}
{"id": "C94", "title": "A vapour composition that is returned reproduces itself", "statement": "A vapour composition returned with fugacity coefficients is, up to the tolerance, the composition that these and those of the liquid predict; the coefficients and the flag belong to it; and where no vapour exists the result is not a number.", "quantifier": "all liquids, guesses, fugacity functions and options", "why_tests_cant": "All fugacity functions and all paths through the loop.", "anchors": ["despasito/thermodynamics/calc.py:calc_vapor_composition", "despasito/thermodynamics/calc.py:objective_find_yi"]}
{"id": "C95", "title": "A liquid composition that is returned reproduces itself", "statement": "A liquid composition that is returned is, up to the tolerance, the composition that its fugacity coefficients and those of the vapour predict, and the coefficients and the flag belong to it.", "quantifier": "all vapours, guesses, fugacity functions and options", "why_tests_cant": "All fugacity functions and all paths through the loop.", "anchors": ["despasito/thermodynamics/calc.py:calc_liquid_composition", "despasito/thermodynamics/calc.py:objective_find_xi"]}
{"id": "C96", "title": "The search between a vapour and a liquid ends at the vapour's boundary", "statement": "Between a mole fraction that gives a vapour and one that does not, the search returns a vapour within the tolerance of a composition that is none; the result lies between the two and the flag is its own.", "quantifier": "all fluids, bounds and tolerances", "why_tests_cant": "All fluids and all numbers of iterations.", "anchors": ["despasito/thermodynamics/calc.py:bracket_bounding_yi"]}
{"id": "C97", "title": "A new guess of a composition is a non-trivial minimum that gives the phase", "statement": "A new guess has fractions that add up to one, lies within the bounds, is a minimum of the objective, is not the minimum nearest to the other phase, and for a vapour is not a liquid when there is a choice; the result is not a number exactly when no composition has fugacity coefficients.", "quantifier": "all fluids, grids and splines", "why_tests_cant": "All objective functions.", "anchors": ["despasito/thermodynamics/calc.py:find_new_yi", "despasito/thermodynamics/calc.py:find_new_xi"]}
{"id": "C98", "title": "The pressure range of a bubble point encloses a solution", "statement": "A range that is returned has a positive lower end below the upper one, the objective is not negative at the lower end and not positive at the upper end, and the guess lies between them; a change of sign that was found is used.", "quantifier": "all fluids, options, limits and curves", "why_tests_cant": "All objective functions and all paths through the two loops.", "anchors": ["despasito/thermodynamics/calc.py:calc_Prange_xi"]}
{"id": "C99", "title": "Pressure limits given by the user restrict the search", "statement": "With a lower and an upper pressure limit the phases are only calculated at pressures between them, and the range lies between them.", "quantifier": "all fluids and limits", "why_tests_cant": "All fluids, limits and paths through the two loops.", "anchors": ["despasito/thermodynamics/calc.py:calc_Prange_xi"]}
{"id": "C100", "title": "The flash labels its phases", "statement": "The flash returns each phase with its own flag; unless both phases are vapours or both are liquids the one called liquid is not a vapour and the one called vapour is not a liquid; phases of one kind are ordered by the first component; and properly labelled phases are not exchanged.", "quantifier": "all phases and flags", "why_tests_cant": "All combinations of flags and compositions.", "anchors": ["despasito/thermodynamics/calc.py:calc_flash"]}
{"id": "C101", "title": "The pressure range of a dew point brackets the solution", "statement": "A pressure range found for a dew point has a positive lower end below its upper end, the objective is negative at the lower and positive at the upper end, the guess lies between them, and a range is found if the objective changes sign within the limits.", "quantifier": "all vapour compositions, fluids and options", "why_tests_cant": "The tests calculate a few dew points of one mixture.", "anchors": ["despasito/thermodynamics/calc.py:calc_Prange_yi"]}
{"id": "C102", "title": "Pressure limits given by the user restrict the search for a dew point", "statement": "With a lower and an upper pressure limit the phases are only calculated at pressures between them, and the range lies between them.", "quantifier": "all fluids and limits", "why_tests_cant": "All fluids, limits and paths through the two loops.", "anchors": ["despasito/thermodynamics/calc.py:calc_Prange_yi"]}
{"id": "C103", "title": "Ideal contribution to the Helmholtz energy", "statement": "For a valid composition, positive temperature and density, the ideal contribution is the sum of x log(Λ³ρx) less one; its derivatives give the pressure ρRT and the energy 3/2 RT, and mixing adds the sum of x log x; invalid fractions and densities are refused.", "quantifier": "all compositions, masses, temperatures and densities", "why_tests_cant": "The tests compare sums of contributions at a few states.", "anchors": ["despasito/equations_of_state/saft/Aideal.py:Abroglie", "despasito/equations_of_state/saft/Aideal.py:Aideal_contribution"]}
{"id": "C104", "title": "SAFT pressure is the density derivative of the Helmholtz energy", "statement": "The residual energy is the sum of its contributions, density by density, with association if and only if sites exist; the pressure is R T ρ² times the derivative of the total energy up to the step of the difference quotient, and tends to that of an ideal gas at low density, including zero.", "quantifier": "all contributions that can be differentiated, densities and steps", "why_tests_cant": "The step and its special case for small densities matter at densities no test uses.", "anchors": ["despasito/equations_of_state/saft/saft.py:EosType.residual_helmholtz_energy", "despasito/equations_of_state/saft/saft.py:EosType.helmholtz_energy", "despasito/equations_of_state/saft/saft.py:EosType.pressure"]}
{"id": "C105", "title": "SAFT fugacity coefficients satisfy the Gibbs relation", "statement": "The fugacity coefficients are exp(A + ρ ∂A/∂ρᵢ − ln Z) for every component, also at infinite dilution; the sum of xᵢ ln φᵢ is the residual Gibbs energy; in an ideal gas they are one; the options of the function are honoured.", "quantifier": "all residual energies, compositions, densities", "why_tests_cant": "Tests compare numbers of single states; the relation holds for every energy function.", "anchors": ["despasito/equations_of_state/saft/saft.py:EosType.fugacity_coefficient", "despasito/equations_of_state/eos_toolbox.py:partial_density_central_difference", "despasito/equations_of_state/eos_toolbox.py:_partial_density_wrapper"]}
{"id": "C106", "title": "Initial guesses of bubble and dew points", "statement": "The composition a bubble or dew point starts from is Raoult's law with the saturation pressures of the components (a set value above the critical point), adds up to one and does not depend on the pressure guess; the search starts at the guess if that lies in the range found; without a range the calculation raises ValueError.", "quantifier": "all compositions, saturation pressures and guesses", "why_tests_cant": "Guesses affect only convergence, so a wrong one goes unnoticed for easy mixtures.", "anchors": ["despasito/thermodynamics/calc.py:calc_bubble_pressure", "despasito/thermodynamics/calc.py:calc_dew_pressure"]}
{"id": "C107", "title": "Association energy and mass action belong together", "statement": "At a solution of the bonding equations the bonds of two kinds of sites are the same counted from either side, the association energy is the stationary value of the functional whose stationarity conditions the equations are, it vanishes exactly without bonds, and its density derivative is minus half the bonded sites over the density.", "quantifier": "all sites, interactions and densities", "why_tests_cant": "Tests compare numbers of single mixtures.", "anchors": ["despasito/equations_of_state/saft/saft.py:EosType.Aassoc", "despasito/equations_of_state/saft/compiled_modules/ext_Aassoc_python.py:calc_Xika"]}
{"id": "C108", "title": "Combining rules for association parameters", "statement": "Parameters of a group are found under either order of the sites; where the cross library has none, energies combine to the geometric mean with the sign of opposite sites and volumes to the mean of the cube roots; parameters that are given are not replaced.", "quantifier": "all libraries", "why_tests_cant": "The tests use libraries with one order of the names and no value of zero.", "anchors": ["despasito/equations_of_state/saft/Aassoc.py:calc_assoc_matrices"]}
{"id": "C109", "title": "Contact values of the square-well fluid", "statement": "The strength of a pair is half the integral of its attraction; the contact value of the hard spheres does not depend on the order of the components and is that of Carnahan and Starling for one component; the contact value of the square-well fluid adds the first-order term of the first-order energy.", "quantifier": "all ranges, depths, diameters and densities at which the contact value is defined (see C151)", "why_tests_cant": "Tests compare totals at a few states.", "anchors": ["despasito/equations_of_state/saft/gamma_sw.py:calc_gHS", "despasito/equations_of_state/saft/gamma_sw.py:calc_gSW"]}
{"id": "C110", "title": "The first consistency test detects inconsistent fugacity coefficients and passes consistent ones", "statement": "fugacity_test_1 returns the difference between the pressure derivative of the mean logarithm of the fugacity coefficients at constant temperature and composition and (Z-1)/P: zero, up to the step, for a consistent equation of state, and different from zero for an inconsistent one.", "quantifier": "all equations of state, states and steps", "why_tests_cant": "The test is itself used as a test; its value is only compared with earlier values.", "anchors": ["despasito/thermodynamics/calc.py:fugacity_test_1"]}
{"id": "C111", "title": "The second consistency test measures the Gibbs-Duhem residual", "statement": "fugacity_test_2 returns the residual of the relation of Gibbs and Duhem at constant temperature and pressure: zero, up to the step, for a consistent equation of state, and different from zero otherwise; steps that would make an amount negative are refused.", "quantifier": "all equations of state, compositions and steps", "why_tests_cant": "A value that is small for every equation of state looks like a pass.", "anchors": ["despasito/thermodynamics/calc.py:fugacity_test_2", "despasito/thermodynamics/calc.py:_fugacity_test_2"]}
{"id": "C112", "title": "Fugacity coefficient of a mixture", "statement": "The coefficient of a mixture is the sum of the mole fractions times the logarithms of the coefficients of the components; an array of one kind of condition gives the values for the single conditions; more than one array is refused.", "quantifier": "all equations of state and arrays", "why_tests_cant": "The tests use single conditions.", "anchors": ["despasito/thermodynamics/calc.py:mixture_fugacity_coefficient"]}
{"id": "C113", "title": "Activity coefficients satisfy the modified law of Raoult", "statement": "The activity coefficients make the sum of x γ Psat equal to the pressure, with the saturation pressures of the pure components, are one exactly for Raoult's law, and a failure of a saturation pressure is passed on.", "quantifier": "all compositions, pressures and fluids", "why_tests_cant": "The test checks one mixture.", "anchors": ["despasito/thermodynamics/calc.py:activity_coefficient"]}
{"id": "C114", "title": "Solubility parameter from the residual energy", "statement": "The solubility parameter is the root of the cohesive energy density: the residual energy is minus R T times the integral of the derivative of the compressibility from the volume of the liquid to infinity; it is zero for an ideal gas, and a positive energy raises ValueError.", "quantifier": "all fluids, densities and options", "why_tests_cant": "The test compares one number.", "anchors": ["despasito/thermodynamics/calc.py:hildebrand_solubility"]}
{"id": "C115", "title": "The coefficient functions of the perturbation terms are defined", "statement": "For every Mie potential with 3 < λa < λr the six functions of the van der Waals energy used by the second and third order and by the contact value are quotients of the tabulated cubics with a positive denominator; a row that does not exist is refused.", "quantifier": "all exponents", "why_tests_cant": "A pole between two tested exponents would go unnoticed.", "anchors": ["despasito/equations_of_state/saft/gamma_mie.py:SaftType.calc_fm"]}
{"id": "C116", "title": "Corresponding states of the Mie fluid", "statement": "Multiplying all well depths and the temperature by one factor, or all lengths by a factor and the density by its inverse cube, changes no term of the Helmholtz energy, and does not change whether a density is refused.", "quantifier": "all parameters, mixtures, densities and factors", "why_tests_cant": "A temperature or a size used once with the wrong power keeps the tested values only if reference values are recomputed.", "anchors": ["despasito/equations_of_state/saft/gamma_mie.py:SaftType.Amonomer", "despasito/equations_of_state/saft/gamma_mie.py:SaftType.Achain"]}
{"id": "C117", "title": "Low-density limit of the monomer energy", "statement": "At low density the first-order term is the mean-field energy of van der Waals and the second order half the mean square of the potential, both attractive; the third order and every other term vanish with the density; the hard spheres have their second virial coefficient.", "quantifier": "all mixtures, exponents, sizes and temperatures", "why_tests_cant": "Tests use liquid densities.", "anchors": ["despasito/equations_of_state/saft/gamma_mie.py:SaftType.Ahard_sphere", "despasito/equations_of_state/saft/gamma_mie.py:SaftType.Afirst_order", "despasito/equations_of_state/saft/gamma_mie.py:SaftType.Asecond_order", "despasito/equations_of_state/saft/gamma_mie.py:SaftType.Athird_order"]}
{"id": "C118", "title": "Chain term: ideal gas limit and number of bonds", "statement": "The radial distribution function at contact is positive and tends to one in a dilute gas; the chain term vanishes with the density and for molecules of one segment; a linear molecule of s segments has s-1 bonds and a ring has s.", "quantifier": "all mixtures and temperatures", "why_tests_cant": "Tests use liquid densities and linear molecules.", "anchors": ["despasito/equations_of_state/saft/gamma_mie.py:SaftType.Achain", "despasito/equations_of_state/saft/gamma_mie.py:SaftType.gdHS", "despasito/equations_of_state/saft/gamma_mie.py:SaftType.g1", "despasito/equations_of_state/saft/gamma_mie.py:SaftType.g2"]}
{"id": "C119", "title": "The order of groups and components does not matter", "statement": "Listing the groups, or the components with their mole fractions, in another order changes no term of the Helmholtz energy of the Mie fluid.", "quantifier": "all permutations, parameters and mixtures", "why_tests_cant": "The tests list the groups in one order.", "anchors": ["despasito/equations_of_state/saft/gamma_mie.py:SaftType.Amonomer", "despasito/equations_of_state/saft/gamma_mie.py:SaftType.Achain", "despasito/equations_of_state/saft/saft.py:EosType.__init__"]}
{"id": "C120", "title": "Densities beyond close packing are refused", "statement": "The monomer term is computed for exactly the densities that are not negative and whose packing fraction is below one, one value for each density; otherwise ValueError is raised.", "quantifier": "all lists of densities", "why_tests_cant": "The tests use single densities below the limit.", "anchors": ["despasito/equations_of_state/saft/gamma_mie.py:SaftType.Amonomer", "despasito/equations_of_state/saft/gamma_mie.py:SaftType.density_max"]}
{"id": "C121", "title": "Contact values for association", "statement": "With bonding volumes given in the library the contact value is the correlation calc_Iij, with cut-off distances that of hard spheres of the sizes of the components; another kind is refused.", "quantifier": "all mixtures and kinds", "why_tests_cant": "No test uses cut-off distances with this variant.", "anchors": ["despasito/equations_of_state/saft/gamma_mie.py:SaftType.calc_gr_assoc", "despasito/equations_of_state/saft/gamma_mie.py:SaftType.calc_gdHS_assoc"]}
{"id": "C122", "title": "Corresponding states of the square-well fluid", "statement": "Multiplying all well depths and the temperature by one factor, or all lengths by a factor and the density by its inverse cube, changes no term of the square-well Helmholtz energy and no contact value, including the averages and combining rules of the components, and does not change whether a density is refused.", "quantifier": "all parameters, mixtures, densities and factors", "why_tests_cant": "Tests compare single numbers; a wrong power of a length or energy shows only when scales are changed together.", "anchors": ["despasito/equations_of_state/saft/gamma_sw.py:SaftType.Amonomer", "despasito/equations_of_state/saft/gamma_sw.py:SaftType.Achain", "despasito/equations_of_state/saft/gamma_sw.py:SaftType.calc_component_averaged_properties"]}
{"id": "C123", "title": "The square-well fluid becomes an ideal gas", "statement": "At low density the residual Helmholtz energy vanishes; the slope of the monomer part is the second virial coefficient of the mixture of square-well groups to second order in the inverse temperature, never below the exact one.", "quantifier": "all mixtures, ranges, depths, sizes and temperatures", "why_tests_cant": "No test evaluates the limit; the virial coefficient follows only from all three terms together.", "anchors": ["despasito/equations_of_state/saft/gamma_sw.py:SaftType.Ahard_sphere", "despasito/equations_of_state/saft/gamma_sw.py:SaftType.Afirst_order", "despasito/equations_of_state/saft/gamma_sw.py:SaftType.Asecond_order", "despasito/equations_of_state/saft/gamma_sw.py:SaftType.Achain"]}
{"id": "C124", "title": "Names of components and groups carry no physics", "statement": "Listing a substance as several components with any split of its mole fraction, or a group under several names with equal parameters, changes no term of the Helmholtz energy of either SAFT variant.", "quantifier": "all mixtures, splits, names, densities and temperatures", "why_tests_cant": "Requires comparing two descriptions of one system for all parameters.", "anchors": ["despasito/equations_of_state/saft/gamma_mie.py:SaftType.Amonomer", "despasito/equations_of_state/saft/gamma_mie.py:SaftType.Achain", "despasito/equations_of_state/saft/gamma_sw.py:SaftType.Amonomer", "despasito/equations_of_state/saft/gamma_sw.py:SaftType.Achain", "despasito/equations_of_state/saft/saft_toolbox.py:calc_composition_dependent_variables"]}
{"id": "C125", "title": "The square-well monomer term refuses what its formulas cannot use", "statement": "A density is refused exactly when it is negative or above the density of packing fraction 0.65, whether alone or in an array; otherwise the energies come in the order of the densities. The contact value of two components does not depend on their order.", "quantifier": "all arrays of densities, mixtures and parameters", "why_tests_cant": "Tests call with admissible densities only.", "anchors": ["despasito/equations_of_state/saft/gamma_sw.py:SaftType.Amonomer", "despasito/equations_of_state/saft/gamma_sw.py:SaftType.calc_gSW", "despasito/equations_of_state/saft/gamma_sw.py:SaftType._check_density"]}
{"id": "C126", "title": "The association integral is one polynomial in reduced units", "statement": "calc_Iij evaluates the tabulated polynomial of total degree ten in the reduced density and the reduced temperature for every pair of components: the table has no coefficient that the loops skip, the stored powers of the density are the right ones, the combined well depth is symmetric, at most the geometric mean, and that of the component for like pairs. Changing units of energy or length, the order of components, or naming a component or group several times changes no value.", "quantifier": "all parameters, mixtures, densities and temperatures", "why_tests_cant": "Tests compare a few numbers at one state, where a wrong power of the density in one of eleven branches can hide.", "anchors": ["despasito/equations_of_state/saft/compiled_modules/ext_gamma_mie_python.py:calc_Iij", "despasito/equations_of_state/saft/gamma_mie.py:SaftType.calc_gr_assoc"]}
{"id": "C127", "title": "Association strengths are positive wherever the equation of state accepts the density", "statement": "The correlation that multiplies every association strength is positive (and bounded) at all densities the equation of state accepts.", "quantifier": "all densities below the packing limit and all temperatures", "why_tests_cant": "A statement about a two-dimensional range of states, of which tests see single points.", "anchors": ["despasito/equations_of_state/saft/compiled_modules/ext_gamma_mie_python.py:calc_Iij", "despasito/equations_of_state/saft/gamma_mie.py:SaftType.Amonomer"]}
{"id": "C69", "title": "Mole fractions that add up to one are accepted", "statement": "In double precision, the test that given mole fractions add up to one accepts every composition that a user wrote so that it adds up to one, in every order of the components, and nothing whose sum differs from one by more than the rounding of the numbers.", "quantifier": "all compositions and orders", "why_tests_cant": "Whether a sum rounds to exactly one depends on the digits of the numbers; the tests use two components.", "anchors": ["despasito/thermodynamics/calc.py:calc_new_mole_fractions", "despasito/thermodynamics/calc.py:equilibrium_objective"]}
{"id": "C128", "title": "The compiled implementations of the association solve agree with the python one", "statement": "For every set of sites, strengths and densities the numba and the cython implementation return the fractions of unbonded sites and the errors that the python implementation returns.", "quantifier": "all sites, strengths and arrays of densities, including those for which the iterations run out", "why_tests_cant": "Tests compare at a few states where the damping never starts.", "anchors": ["despasito/equations_of_state/saft/compiled_modules/ext_Aassoc_numba.py", "despasito/equations_of_state/saft/compiled_modules/ext_Aassoc_cython.pyx", "despasito/equations_of_state/saft/compiled_modules/ext_Aassoc_python.py"]}
{"id": "C129", "title": "Data files become the data sets they describe", "statement": "The columns of a data file reach the data class under their names; the mole fractions of each row form one composition per row, in the order of the components given by the numbers in the column names, for any number of rows; other entries of the data set arrive unchanged and take precedence over the file whatever the order of the entries.", "quantifier": "all tables (numbers of rows, columns, names) and all entries of a data set in any order", "why_tests_cant": "The example files have several rows with columns in order; a single row or another order is a different path through numpy.", "anchors": ["despasito/input_output/read_input.py:process_exp_data", "despasito/input_output/read_input.py:process_exp_data_file"]}
{"id": "C130", "title": "A file of keys and values becomes the dictionary written in it", "statement": "Each line of a parameter file gives one entry: its key, and its value evaluated if it is an expression and otherwise as the text written on the line.", "quantifier": "all lines, keys, values and delimiters", "why_tests_cant": "The test reads one file with well-formed numbers.", "anchors": ["despasito/input_output/read_input.py:file2paramdict"]}
{"id": "C131", "title": "The mole fraction of a component belongs to the component listed in the same place", "statement": "The components of every equation of state are those of the bead configuration, as many and in the same order, so that the i-th mole fraction is that of the i-th component listed.", "quantifier": "all configurations: names, orders, numbers of groups", "why_tests_cant": "The example files list components in alphabetical order, one group each.", "anchors": ["despasito/input_output/read_input.py:process_bead_data", "despasito/equations_of_state/cubic/peng_robinson.py:EosType.__init__"]}
{"id": "C132", "title": "An equation of state is built exactly when all it needs is there", "statement": "Construction succeeds exactly when an implementation is chosen, groups, library and (for SAFT) composition are given and every group that is used has all parameters without default; every keyword is either used or refused.", "quantifier": "all keyword arguments, names of equations of state and libraries", "why_tests_cant": "Each test builds one complete object.", "anchors": ["despasito/equations_of_state/__init__.py:initiate_eos", "despasito/equations_of_state/interface.py:EosTemplate.__init__", "despasito/equations_of_state/saft/saft.py:EosType.__init__", "despasito/equations_of_state/cubic/peng_robinson.py:EosType.__init__"]}
{"id": "C133", "title": "The terms of the Mie fluid do not depend on the implementation or on how the densities are written", "statement": "For every array of densities, written as integers or as floats, the python, numba and cython functions of the Mie terms return the same values.", "quantifier": "all arrays of densities of either element type, all parameters and all three implementations", "why_tests_cant": "Tests pass floats, and compare implementations at one state.", "anchors": ["despasito/equations_of_state/saft/compiled_modules/ext_gamma_mie_python.py", "despasito/equations_of_state/saft/compiled_modules/ext_gamma_mie_numba.py", "despasito/equations_of_state/saft/compiled_modules/ext_gamma_mie_cython.pyx", "despasito/equations_of_state/saft/gamma_mie.py:SaftType.Afirst_order"]}
{"id": "C134", "title": "The phases that are returned are in equilibrium", "statement": "The two phases returned by a bubble point, a dew point or a flash have the same fugacity of every component, up to the objective that is returned and a multiple of the tolerance of the inner loop.", "quantifier": "all temperatures, compositions, equations of state, starting guesses, earlier calculations and numerical procedures", "why_tests_cant": "Tests compare a few results with stored numbers; they do not recompute fugacities, and do not see a solver that stopped early.", "anchors": ["despasito/thermodynamics/calc.py:calc_bubble_pressure", "despasito/thermodynamics/calc.py:calc_dew_pressure", "despasito/thermodynamics/calc.py:calc_flash", "despasito/thermodynamics/calc.py:calc_vapor_composition", "despasito/thermodynamics/calc.py:objective_bubble_pressure"]}
{"id": "C135", "title": "A fluid has vapour and liquid densities exactly below its critical temperature", "statement": "For a pure substance of the cubic equation of state the pressure has exactly one density for every pressure at and above the critical temperature of the library, and for some pressure three below it; at the critical temperature the pressure of the inflection is the critical pressure of the library, and reduced pressures agree for substances of equal kappa.", "quantifier": "all critical temperatures and pressures, kappa, temperatures, pressures and densities", "why_tests_cant": "Tests evaluate a few densities below the critical temperature; uniqueness over a continuum of densities and the behaviour at the critical temperature or at high temperatures cannot be sampled.", "anchors": ["despasito/equations_of_state/cubic/peng_robinson.py:EosType.pressure", "despasito/equations_of_state/cubic/peng_robinson.py:EosType._calc_temp_dependent_parameters", "despasito/equations_of_state/cubic/peng_robinson.py:EosType.parameter_refresh"]}
{"id": "C136", "title": "A pure substance has one saturation pressure below its critical temperature, none above, and the search finds it", "statement": "Below the critical temperature of the library exactly one pair of densities has the pressure and the fugacity coefficient in common, above it there is none; the function whose square the search minimises falls strictly with the pressure, so that the search with exact numerical procedures returns that pressure and those densities, and with a tolerance a pressure whose error is bounded by it.", "quantifier": "all pure substances, temperatures and tolerances, curves and ranges", "why_tests_cant": "Tests compare one saturation pressure with a stored number; that no other one exists, and how far a result may be off, cannot be sampled.", "anchors": ["despasito/thermodynamics/calc.py:calc_saturation_properties", "despasito/thermodynamics/calc.py:objective_saturation_pressure", "despasito/equations_of_state/cubic/peng_robinson.py:EosType.pressure", "despasito/equations_of_state/cubic/peng_robinson.py:EosType.fugacity_coefficient"]}
{"id": "C137", "title": "The density search returns the vapour and the liquid density, each with its label", "statement": "For every isotherm of the cubic equation of state and every pressure: without a loop both searches return the only density as that of a critical fluid; below the loop both return a vapour, above it a liquid; inside the loop the vapour search returns the lowest density as a vapour and the liquid search the highest as a liquid. Of the two the vapour has the lower fugacity coefficient exactly below the saturation pressure.", "quantifier": "all temperatures, compositions, parameters and pressures, all spline fits that reproduce the isotherm and all root finders that return a root of their bracket", "why_tests_cant": "Tests compare a few densities with stored numbers far from the critical point; which of several roots a bracket contains cannot be sampled.", "anchors": ["despasito/thermodynamics/calc.py:calc_vapor_density", "despasito/thermodynamics/calc.py:calc_liquid_density", "despasito/equations_of_state/cubic/peng_robinson.py:EosType.pressure", "despasito/equations_of_state/cubic/peng_robinson.py:EosType.fugacity_coefficient"]}
{"id": "C138", "title": "Each prediction is compared with the measurement of the same quantity, component and state", "statement": "The objective of a data set compares every measured quantity with the prediction of the same quantity for the same component at the same state, with the weight given for it; the calculation receives the conditions of the data set and none of the measured results; data equal to the predictions give the smallest objective.", "quantifier": "all five classes of data, numbers of states and components, measured values, weights and outputs of the calculation", "why_tests_cant": "Tests evaluate one or two data sets against stored totals; a total does not show which column was compared with which, and exchanged columns are close for nearly ideal mixtures.", "anchors": ["despasito/parameter_fitting/data_classes/TLVE.py:Data.objective", "despasito/parameter_fitting/data_classes/flash.py:Data.objective", "despasito/parameter_fitting/data_classes/liquid_density.py:Data.objective", "despasito/parameter_fitting/data_classes/saturation_properties.py:Data.objective", "despasito/parameter_fitting/data_classes/solubility_parameter.py:Data.objective"]}
{"id": "C139", "title": "The objective at a set of parameters does not depend on the sets tried before", "statement": "Whatever sets of parameters a fit has tried, the calculation of a data set at the next set of parameters gets from the equation of state the same answers, and returns the same results, as with an equation of state newly built with these parameters; nothing of an earlier set is left in the libraries.", "quantifier": "all sequences of sets of parameters, all calculations (any dependence of the next state on the earlier answers), all numbers of states, both SAFT variants", "why_tests_cant": "An optimiser tries thousands of sets; tests evaluate one set in a new object. A result that depends on the order of the trials shows only in the comparison of two histories.", "anchors": ["despasito/parameter_fitting/fit_functions.py:compute_obj", "despasito/parameter_fitting/interface.py:ExpDataTemplate.update_parameters", "despasito/equations_of_state/saft/saft.py:EosType.parameter_refresh", "despasito/equations_of_state/saft/gamma_mie.py:SaftType._check_temperature_dependent_parameters", "despasito/equations_of_state/saft/saft.py:EosType.Aassoc"]}
{"id": "C140", "title": "Options given for a global method reach the optimiser, and only those it knows", "statement": "Every option in the user's dictionary reaches the function of scipy with its value; defaults are used only for what is left out; options of the code itself (file of results, pool, name of the method) are not handed on, so that a documented option never makes the call fail; an optimiser that evaluates in several processes gets data sets without a pool; the reported number of evaluations is the number of points.", "quantifier": "all dictionaries of options in any order, all pools and numbers of workers, all sets of keywords known to scipy", "why_tests_cant": "Tests run each method with one dictionary of options; a dropped option shows only in the course of an optimisation, and pools are not used in tests.", "anchors": ["despasito/parameter_fitting/global_methods.py:differential_evolution", "despasito/parameter_fitting/global_methods.py:shgo", "despasito/parameter_fitting/global_methods.py:brute", "despasito/parameter_fitting/global_methods.py:basinhopping", "despasito/parameter_fitting/global_methods.py:single_objective", "despasito/parameter_fitting/global_methods.py:_del_Data_MultiprocessingObject", "despasito/parameter_fitting/__init__.py:fit"]}
{"id": "C141", "title": "A run writes its results, logs what its processes say, and leaves nothing behind", "statement": "A run that succeeds has written its results to the file asked for; afterwards the processes of the pool have ended and their log files are gone, also when the run fails; every message of a process is in the main log once, in order and under its number; the processes log at the level asked for; flags the parser accepts do not make the program fail.", "quantifier": "all sequences of jobs, some of which raise, all messages and numbers of processes, all failing parts of a run, all levels of verbosity", "why_tests_cant": "Tests call the calculation directly, with one process and without the command line; what is left behind after an exception is not looked at.", "anchors": ["despasito/main.py:run", "despasito/main.py:get_parser", "despasito/__main__.py", "despasito/utils/parallelization.py:MultiprocessingJob.pool_job", "despasito/utils/parallelization.py:MultiprocessingJob._consolidate_mp_logs", "despasito/utils/parallelization.py:MultiprocessingJob.end_pool", "despasito/utils/parallelization.py:batch_jobs"]}
{"id": "C142", "title": "A point that fails costs its own row of the table only", "statement": "For every calculation type and every list of points of which any may fail: the table that is written has one line for each point in the order given, with the conditions of the point, and the results of the point or NaN and flag 3 if it failed; the names of the columns are the same whichever points fail.", "quantifier": "all lists of points, all outcomes of each point, any number of components, serial and parallel", "why_tests_cant": "Tests run points that succeed; a failing point among others, first or later, with one, two or three components, is not tried, and the file is not read back.", "anchors": ["despasito/input_output/write_output.py:writeout_thermo_dict", "despasito/thermodynamics/calculation_types.py:bubble_pressure", "despasito/thermodynamics/calculation_types.py:dew_pressure", "despasito/thermodynamics/calculation_types.py:flash", "despasito/thermodynamics/calculation_types.py:saturation_properties", "despasito/thermodynamics/calculation_types.py:liquid_properties", "despasito/thermodynamics/calculation_types.py:vapor_properties", "despasito/thermodynamics/calculation_types.py:solubility_parameter", "despasito/thermodynamics/calculation_types.py:activity_coefficient", "despasito/thermodynamics/calculation_types.py:verify_eos"]}
{"id": "C143", "title": "Activity coefficients belong to the phases of their row", "statement": "In every row each activity coefficient satisfies gamma_i x_i Psat_i = y_i P with the pressure, the compositions and the saturation pressures of the same row, the two phases are in equilibrium with each other, and what was given (temperature, pressure, composition) is returned unchanged; a component above its critical temperature has a coefficient if an equilibrium was found for it.", "quantifier": "all four modes, temperatures, compositions, equations of state and earlier points", "why_tests_cant": "Tests compare two coefficients with stored numbers at one state; that the liquid of a dew point is the starting guess does not show in such a comparison.", "anchors": ["despasito/thermodynamics/calc.py:activity_coefficient", "despasito/thermodynamics/calculation_types.py:activity_coefficient", "despasito/thermodynamics/calculation_types.py:_activity_coefficient_wrapper", "despasito/thermodynamics/calc.py:calc_dew_pressure"]}
{"id": "C144", "title": "A fit returns its parameters in the order of the names, with their objective, and reports what is wrong with its input", "statement": "A fit that returns gives for the bead and the names of the user, in their order, the parameters found by the global method asked for, and the objective of these parameters; the method is given one checked pair of bounds and one guess for each name, the user's where given, and one data object for each data set in order; a fit in which nothing could be evaluated does not return; input that is missing or cannot be used is reported with the cause.", "quantifier": "all dictionaries of parameters, data sets, options and keyword arguments, all equations of state, data classes and global methods", "why_tests_cant": "Tests run two or three complete fits; input that is missing or wrong in one place, and in several at a time, is not tried.", "anchors": ["despasito/parameter_fitting/__init__.py:fit", "despasito/parameter_fitting/fit_functions.py:consolidate_bounds", "despasito/parameter_fitting/fit_functions.py:check_parameter_bounds", "despasito/parameter_fitting/fit_functions.py:initial_guess", "despasito/parameter_fitting/global_methods.py:single_objective"]}
{"id": "C145", "title": "The combining rules a user names are the ones that are used", "statement": "For two groups without an explicit cross value, each cross parameter is what the rule named by the user gives for the parameters of the two groups, or the rule of the equation of state for the parameters the user does not mention; a rule that does not exist, or lacks what it needs, is refused with an error that names it and the groups.", "quantifier": "all groups, libraries and dictionaries of rules", "why_tests_cant": "Every combination of rules and groups; a wrong rule gives plausible numbers.", "anchors": ["despasito/equations_of_state/eos_toolbox.py:combining_rules", "despasito/equations_of_state/eos_toolbox.py:cross_interaction_from_dict", "despasito/equations_of_state/saft/saft.py:EosType.__init__", "despasito/equations_of_state/saft/gamma_mie.py:SaftType.__init__", "despasito/equations_of_state/saft/gamma_sw.py:SaftType.__init__"]}
{"id": "C146", "title": "Numerical derivatives in double precision are accurate", "statement": "The derivative taken by central differences in double precision differs from the derivative of the exact function by a bounded error: the truncation of the difference, the error of the computed values divided by the step, and the rounding of the points. For the pressure, fugacity coefficients and consistency tests, at all densities and pressures of interest, the relative error of a smooth function computed to machine precision stays below 1e-8.", "quantifier": "all functions with a bounded third derivative, all errors of the computed values, all densities from 1e-9 to 1e9 mol/m3, all temperatures and pressures", "why_tests_cant": "Tests compare single pressures with stored numbers that come from the same differences; how the error grows with the magnitude of the variable does not show.", "anchors": ["despasito/utils/general_toolbox.py:central_difference", "despasito/equations_of_state/saft/saft.py:EosType.pressure", "despasito/equations_of_state/saft/saft.py:EosType.fugacity_coefficient", "despasito/equations_of_state/eos_toolbox.py:partial_density_central_difference", "despasito/thermodynamics/calc.py:fugacity_test_1"]}
{"id": "C147", "title": "The association matrices of a mixture contain what the libraries of the groups say", "statement": "For sites the groups have, the energy and the bonding parameters are the entries of the group, whichever order of the sites the entry is written in; sites of one kind repel; everything else is zero or, for two sites that have entries with themselves, the combination of these; a kind of bonding parameter is in use if it is given beside an energy; the libraries are refused with a ValueError exactly if the entries of two sites are incomplete or contradictory, or volumes are mixed with cutoffs, or distances come without cutoffs.", "quantifier": "all numbers of groups and sites, all site counts, all libraries without entries for pairs of groups, any order of the sites", "why_tests_cant": "Tests build the matrices of one or two substances; an entry written for the wrong sites, a missed group or site or a flag left unset shows only in other mixtures.", "anchors": ["despasito/equations_of_state/saft/Aassoc.py:calc_assoc_matrices"]}
{"id": "C148", "title": "An exported library of parameters is complete, in order and reproducible", "statement": "For every library, the exported file holds every group with every parameter unchanged, sorted by name without regard to case, equal libraries give the same file, and a library that cannot be exported leaves an existing file as it was.", "quantifier": "all libraries, all orders in which groups and parameters are stored, all contents of an existing file", "why_tests_cant": "There is no test of the export; names that differ in case and values that JSON cannot hold do not occur in the examples.", "anchors": ["despasito/input_output/write_output.py:write_EOSparameters"]}
{"id": "C149", "title": "Data sets do not change each other's weights", "statement": "A data set is built with the weights written in its description, whether the description or its dictionary of weights has been used for another data set before or not, and a data set that exists keeps its weights.", "quantifier": "all pairs of data sets of all classes", "why_tests_cant": "Takes two data sets built from the same objects, with other lengths or other calculations.", "anchors": ["despasito/parameter_fitting/interface.py:ExpDataTemplate.__init__", "despasito/parameter_fitting/data_classes/TLVE.py:Data.__init__", "despasito/parameter_fitting/data_classes/flash.py:Data.__init__", "despasito/parameter_fitting/data_classes/liquid_density.py:Data.__init__", "despasito/parameter_fitting/data_classes/saturation_properties.py:Data.__init__", "despasito/parameter_fitting/data_classes/solubility_parameter.py:Data.__init__"]}
{"id": "C150", "title": "The effective packing fraction of the Mie fluid is one", "statement": "The effective packing fraction that stands for an exponent lies between zero and one, so that no denominator of the perturbation terms vanishes and the mean attractive energy has its sign.", "quantifier": "all exponents that the bounds of the parameters allow, with their doubles and sums, and all densities that the equation of state accepts", "why_tests_cant": "A polynomial in two continuous variables; tests evaluate it at a few usual exponents and liquid densities.", "anchors": ["despasito/equations_of_state/saft/compiled_modules/ext_gamma_mie_python.py:calc_a1s", "despasito/equations_of_state/saft/gamma_mie.py:SaftType.Amonomer", "despasito/equations_of_state/saft/saft.py:EosType.check_bounds"]}
{"id": "C151", "title": "The effective packing fraction of the square-well fluid is one", "statement": "The effective packing fraction that stands for a range of the well lies between zero and one, so that the contact value of the attraction is finite, at least one, and the first-order energy has its sign.", "quantifier": "all ranges that the bounds of the parameters allow and all densities that the equation of state accepts", "why_tests_cant": "A polynomial in two continuous variables; tests evaluate it for wells of usual range.", "anchors": ["despasito/equations_of_state/saft/gamma_sw.py:SaftType.effective_packing_fraction", "despasito/equations_of_state/saft/gamma_sw.py:SaftType.calc_g0HS", "despasito/equations_of_state/saft/gamma_sw.py:SaftType.Amonomer"]}
{"id": "C152", "title": "The contact value in the chain term is positive", "statement": "The contact value whose logarithm the chain term takes is positive, so that the chain term is a number.", "quantifier": "both SAFT equations of state, all parameters, all densities that the equation of state accepts and all temperatures", "why_tests_cant": "The sign depends on three continuous variables; tests evaluate the term at ordinary temperatures, where the value is positive.", "anchors": ["despasito/equations_of_state/saft/gamma_sw.py:SaftType.calc_gSW", "despasito/equations_of_state/saft/gamma_sw.py:SaftType.Achain", "despasito/equations_of_state/saft/gamma_sw.py:SaftType.Amonomer", "despasito/equations_of_state/saft/gamma_mie.py:SaftType.Achain"]}
{"id": "C153", "title": "The second-order term lowers the energy", "statement": "The second-order perturbation term, minus a variance of the attractive energy, is not positive at any density that the equation of state accepts.", "quantifier": "both SAFT equations of state, all parameters within their bounds, all compositions, temperatures and accepted densities", "why_tests_cant": "The sign is that of polynomials in several continuous variables near the limit of the accepted densities, where no test evaluates the term.", "anchors": ["despasito/equations_of_state/saft/gamma_sw.py:SaftType.Asecond_order", "despasito/equations_of_state/saft/gamma_mie.py:SaftType.Asecond_order", "despasito/equations_of_state/saft/gamma_sw.py:SaftType.Amonomer", "despasito/equations_of_state/saft/gamma_mie.py:SaftType.Amonomer", "despasito/equations_of_state/saft/gamma_mie.py:SaftType.calc_fm"]}
{"id": "C154", "title": "Hard spheres resist compression", "statement": "At every density that the equation of state accepts, the hard-sphere energy is positive and increases strictly with the density; it grows beyond every bound only where the accepted densities end.", "quantifier": "both SAFT equations of state, all mixtures, sizes, temperatures and accepted densities", "why_tests_cant": "The energy is computed from one packing fraction and the densities are accepted by another; they agree for groups of one size, and no test compares them near the limit.", "anchors": ["despasito/equations_of_state/saft/gamma_mie.py:SaftType.Ahard_sphere", "despasito/equations_of_state/saft/gamma_sw.py:SaftType.Ahard_sphere", "despasito/equations_of_state/saft/gamma_mie.py:SaftType.Amonomer", "despasito/equations_of_state/saft/gamma_mie.py:SaftType.density_max", "despasito/equations_of_state/saft/gamma_sw.py:SaftType.density_max", "despasito/equations_of_state/saft/saft_toolbox.py:calc_zetax"]}
{"id": "C155", "title": "Attraction lowers the energy of the monomers", "statement": "At every density that the equation of state accepts, the first- and third-order perturbation terms are negative, and the energy of the monomers is below that of the hard spheres.", "quantifier": "both SAFT equations of state, all parameters within their bounds, all compositions, temperatures and accepted densities", "why_tests_cant": "The terms are fitted expressions in the packing fraction, the temperature and the exponents; a test evaluates them at a few states of one substance, and no test looks at their signs.", "anchors": ["despasito/equations_of_state/saft/gamma_mie.py:SaftType.Afirst_order", "despasito/equations_of_state/saft/gamma_mie.py:SaftType.Athird_order", "despasito/equations_of_state/saft/gamma_mie.py:SaftType.Amonomer", "despasito/equations_of_state/saft/gamma_mie.py:SaftType.calc_fm", "despasito/equations_of_state/saft/gamma_sw.py:SaftType.Afirst_order", "despasito/equations_of_state/saft/gamma_sw.py:SaftType.Amonomer", "despasito/equations_of_state/saft/saft_toolbox.py:calc_dkk"]}
{"id": "C156", "title": "Heating raises the saturation pressure", "statement": "Of two saturation states of one pure substance the hotter has the higher saturation pressure, the denser vapour and the lighter liquid, and the line of saturation states stays below the critical pressure.", "quantifier": "the cubic equation of state, all critical constants, acentric factors and pairs of temperatures", "why_tests_cant": "A test compares the saturation pressure with a reference at one or a few temperatures; that the whole line is monotone needs a comparison of the two Gibbs energies at every pair of temperatures.", "anchors": ["despasito/thermodynamics/calc.py:calc_saturation_properties", "despasito/equations_of_state/cubic/peng_robinson.py:EosType.pressure", "despasito/equations_of_state/cubic/peng_robinson.py:EosType.fugacity_coefficient", "despasito/equations_of_state/cubic/peng_robinson.py:EosType._calc_temp_dependent_parameters"]}
{"id": "C157", "title": "Heating raises the pressure and expands the fluid", "statement": "Heating a fluid at constant density raises its pressure; heating it at constant pressure lowers the density of the vapour and of the liquid.", "quantifier": "the cubic equation of state, all mixtures with interaction parameters up to one, all compositions, densities below close packing and pairs of temperatures", "why_tests_cant": "Tests evaluate the pressure at single states; the sign of the change between any two temperatures in any mixture is a statement about all of them.", "anchors": ["despasito/equations_of_state/cubic/peng_robinson.py:EosType.pressure", "despasito/equations_of_state/cubic/peng_robinson.py:EosType._calc_temp_dependent_parameters", "despasito/equations_of_state/cubic/peng_robinson.py:EosType._calc_mixed_parameters", "despasito/equations_of_state/cubic/peng_robinson.py:EosType.parameter_refresh"]}
{"id": "C158", "title": "The bubble and dew objectives of a pure fluid change sign only at the saturation pressure", "statement": "For a pure fluid the objective of the bubble pressure is positive below the saturation pressure, zero at it and negative above it, and the objective of the dew pressure has the opposite sign, so that both searches look for the pressure that the search for the saturation pressure returns.", "quantifier": "the cubic equation of state, all pure substances, all temperatures and pressures, exact roots of the isotherm", "why_tests_cant": "Tests compare single bubble pressures with stored numbers; the sign of the objective at every pressure, and that it has no other zero, is a statement about all pressures.", "anchors": ["despasito/thermodynamics/calc.py:objective_bubble_pressure", "despasito/thermodynamics/calc.py:objective_dew_pressure", "despasito/thermodynamics/calc.py:equilibrium_objective", "despasito/thermodynamics/calc.py:calc_vapor_density", "despasito/thermodynamics/calc.py:calc_liquid_density", "despasito/thermodynamics/calc.py:calc_vapor_fugacity_coefficient", "despasito/thermodynamics/calc.py:calc_liquid_fugacity_coefficient", "despasito/equations_of_state/cubic/peng_robinson.py:EosType.fugacity_coefficient"]}
{"id": "C159", "title": "An ideal gas is assumed only for vapours that nearly are one", "statement": "Where the density search of a vapour gives up and reports an ideal gas, the curve of the isotherm lies above the pressure, the mixture has a vapour less dense than every point of the curve, and the logarithms of its fugacity coefficients are at most a constant of the mixture times the lowest density of the curve.", "quantifier": "the cubic equation of state, all mixtures, temperatures, pressures, ranges of the curve and spline fits that reproduce the isotherm", "why_tests_cant": "Tests evaluate vapours at a few pressures, all of them far above the lowest pressure of the curve; how large the error of the ideal gas can become is a statement about all pressures below it.", "anchors": ["despasito/thermodynamics/calc.py:calc_vapor_density", "despasito/thermodynamics/calc.py:calc_vapor_fugacity_coefficient", "despasito/thermodynamics/calc.py:pressure_vs_volume_arrays", "despasito/equations_of_state/cubic/peng_robinson.py:EosType.fugacity_coefficient", "despasito/equations_of_state/cubic/peng_robinson.py:EosType.pressure"]}
{"id": "C160", "title": "A phase of constant fugacity coefficients gets the composition they give", "statement": "For a phase whose fugacity coefficients do not depend on its composition, such as an ideal gas or one substance listed under several names, the composition that is returned is the modified law of Raoult applied to the other phase, from every starting guess; for one substance under several names it is the composition of the other phase, and the objective of the pressure is that of the substance.", "quantifier": "all compositions of the other phase, numbers of components, coefficients, guesses, tolerances and four or more iterations", "why_tests_cant": "Tests compare the result for a few mixtures from one guess; that the loop reaches the exact composition from every guess, through the detour of the search for a non-trivial solution, is a statement about all runs.", "anchors": ["despasito/thermodynamics/calc.py:calc_vapor_composition", "despasito/thermodynamics/calc.py:calc_liquid_composition", "despasito/thermodynamics/calc.py:calc_new_mole_fractions", "despasito/thermodynamics/calc.py:equilibrium_objective", "despasito/equations_of_state/cubic/peng_robinson.py:EosType.fugacity_coefficient"]}
{"id": "C161", "title": "The flash of an ideal mixture gives the phases of Raoult's law", "statement": "For a binary mixture whose K-values do not depend on the compositions the flash returns the phases that belong to these K-values, within the tolerance, from all saturation pressures and through restarts; when the K-values are the saturation pressures over the pressure it returns the phases of Raoult's law exactly with error zero; and at pressures at which only one phase exists it does not report a solution.", "quantifier": "all K-values on both sides of one, pressures, saturation pressures, tolerances and four or more iterations", "why_tests_cant": "Tests run the flash for a few mixtures; that every run with constant K-values ends at the known answer is a statement about all starting values, restarts and random numbers.", "anchors": ["despasito/thermodynamics/calc.py:calc_flash", "despasito/thermodynamics/calc.py:constrain_Ki"]}
{"id": "C162", "title": "The search for a bubble pressure encloses it whenever the objective falls through zero once", "statement": "For a mixture that has a liquid and a vapour of another composition at every pressure, and whose objective falls with the pressure, positive below the bubble pressure and negative above it, as in a mixture that follows the law of Raoult, the search for the pressure range returns a range that contains the bubble pressure, provided that the factors reach it within the iterations; limits on both sides of it are returned as they are, and no range is returned when it lies outside the limits.", "quantifier": "all falling objectives, saturation pressures, compositions, limits, factors, numbers of iterations and positions of the starting pressure", "why_tests_cant": "Tests search a few bubble points; that no position of the bubble pressure is missed, and that none is found at an azeotrope, are statements about all pressures and mixtures.", "anchors": ["despasito/thermodynamics/calc.py:calc_Prange_xi", "despasito/thermodynamics/calc.py:equilibrium_objective"]}
{"id": "C163", "title": "The search for a dew pressure encloses it whenever the objective rises through zero once", "statement": "For a mixture that has a vapour and a liquid at every pressure, and whose objective rises with the pressure, negative below the dew pressure and positive above it, as in a mixture that follows the law of Raoult, the search for the pressure range returns a range that contains the dew pressure, provided that the factors reach it within the iterations; limits on both sides of it are returned as they are, and no range is returned when it lies outside the limits.", "quantifier": "all rising objectives, saturation pressures, compositions, limits, factors, numbers of iterations and positions of the starting pressure", "why_tests_cant": "Tests search a few dew points above the default lower limit; what happens below it is a statement about the loop for every pressure.", "anchors": ["despasito/thermodynamics/calc.py:calc_Prange_yi", "despasito/thermodynamics/calc.py:equilibrium_objective"]}
{"id": "C164", "title": "The bubble and dew points of an ideal mixture are those of Raoult's law", "statement": "For a mixture that follows the law of Raoult the bubble point job returns the sum of the saturation pressures weighted with the mole fractions, within the length to which the root finder encloses a zero, and the vapour composition of Raoult's law; the dew point job returns the reciprocal of the sum of the mole fractions over the saturation pressures and the liquid composition of Raoult's law; both independently of what earlier calculations have left behind.", "quantifier": "all saturation pressures, compositions, guesses, states left by earlier calculations and root finders that enclose a zero", "why_tests_cant": "Tests compare a few points with stored numbers; that the whole chain from the guess through the range, the root finder and the final evaluation ends at a known answer, from every state, cannot be tested point by point.", "anchors": ["despasito/thermodynamics/calc.py:calc_bubble_pressure", "despasito/thermodynamics/calc.py:calc_dew_pressure", "despasito/thermodynamics/calc.py:objective_bubble_pressure", "despasito/thermodynamics/calc.py:objective_dew_pressure"]}
{"id": "C165", "title": "Activity coefficients of an ideal mixture are one", "statement": "For a mixture that follows the law of Raoult all activity coefficients of a row are equal to one, within the length to which the root finder encloses the pressure, relative to the pressure; in every mode that finds the phases itself (liquid given, vapour given, pressure given) and in every row of a batch.", "quantifier": "all saturation pressures, compositions, guesses, batches and root finders that enclose a zero", "why_tests_cant": "Tests compare stored coefficients at a few points; that ideal mixtures give one in every mode and after every history needs the whole chain of calculations.", "anchors": ["despasito/thermodynamics/calc.py:activity_coefficient", "despasito/thermodynamics/calculation_types.py:_activity_coefficient_wrapper", "despasito/thermodynamics/calc.py:calc_bubble_pressure", "despasito/thermodynamics/calc.py:calc_dew_pressure", "despasito/thermodynamics/calc.py:calc_flash"]}
{"id": "C166", "title": "An error of the splines moves the saturation pressure by no more than itself", "statement": "If the splines through the isotherm miss it by at most epsilon, the pressure that the search returns misses the saturation pressure of the pure substance by at most epsilon, apart from the tolerance and a term of second order in epsilon over the width of the loop, and the densities it returns lie between the densities of each phase at the pressures epsilon below and above.", "quantifier": "all pure substances, temperatures, splines within epsilon of the isotherm, tolerances and minimisers", "why_tests_cant": "Tests compare one saturation pressure with a stored number of the same splines; how an error between the points of the curve is passed on cannot be sampled.", "anchors": ["despasito/thermodynamics/calc.py:calc_saturation_properties", "despasito/thermodynamics/calc.py:objective_saturation_pressure", "despasito/thermodynamics/calc.py:pressure_vs_volume_spline", "despasito/equations_of_state/cubic/peng_robinson.py:EosType.pressure"]}
{"id": "C167", "title": "An error of the spline does not reach the density", "statement": "If the spline through the isotherm misses it by less than the isotherm changes over one percent of the density, the density searches return the density of the equation of state at the pressure without error and with the flag of its phase; only the density of a phase that was not asked for, and an estimate that is more than one percent away, carry the error of the spline.", "quantifier": "all isotherms that rise, or rise, fall and rise, all pressures other than those near the ends of the fall, all splines", "why_tests_cant": "Tests compare densities at a few states with stored numbers; whether a change of the spline or of the number of its points can change a density cannot be sampled.", "anchors": ["despasito/thermodynamics/calc.py:calc_vapor_density", "despasito/thermodynamics/calc.py:calc_liquid_density", "despasito/thermodynamics/calc.py:pressure_vs_volume_spline", "despasito/thermodynamics/calc.py:pressure_spline_error"]}
{"id": "C168", "title": "Rounding moves the pressure by no more than 2e-14 of its repulsive and attractive parts", "statement": "In double precision the computed pressure of the cubic equation of state misses its formula by at most 2e-14 times the sum of the repulsive and the attractive part, at every density up to 99 percent of the packing limit; the sign of the pressure difference that the density search asks for is right unless the difference is below 3e-14 of the two parts, and a sign change encloses the density of the formula up to that divided by the slope.", "quantifier": "all doubles for gas constant, temperature, mixture parameters and density above 1e-20", "why_tests_cant": "Tests compare with stored numbers to six digits; the error of rounding where the two parts cancel depends on the last digit of every argument.", "anchors": ["despasito/equations_of_state/cubic/peng_robinson.py:EosType.pressure", "despasito/thermodynamics/calc.py:pressure_spline_error", "despasito/thermodynamics/calc.py:calc_vapor_density", "despasito/thermodynamics/calc.py:calc_liquid_density"]}
{"id": "C169", "title": "Rounding does not change the phases of a flash", "statement": "In double precision the mole fractions that the flash computes from two equilibrium ratios are those of the exact formulas to within 3e-15, whichever component is listed first; the fractions of each phase are accepted as adding up to one; when both components prefer the same phase, the liquid is the documented replacement.", "quantifier": "all doubles for the two equilibrium ratios up to 1e40", "why_tests_cant": "The error depends on the last digits of the ratios and on which component is listed first; tests compare a few flashes to six digits.", "anchors": ["despasito/thermodynamics/calc.py:calc_flash", "despasito/thermodynamics/calc.py:calc_new_mole_fractions", "despasito/thermodynamics/calc.py:equilibrium_objective"]}
{"id": "C170", "title": "Rounding moves the objective of a bubble or dew point by a few units in the last place", "statement": "In double precision the objective of n components misses its formula by at most 2.3e-16 times n+2 times the sum of the shares plus one rounding; with up to ten components its sign is right unless the formula is within 6e-15 of zero, so that a change of sign encloses the solution up to the error divided by the slope; new compositions are right to two roundings and absent components stay absent.", "quantifier": "all accepted compositions of doubles, fugacity coefficients between 1e-50 and 1e50", "why_tests_cant": "The error depends on the last digits of every coefficient and on numpy's order of summation; tests compare solutions to a few digits.", "anchors": ["despasito/thermodynamics/calc.py:equilibrium_objective", "despasito/thermodynamics/calc.py:calc_new_mole_fractions", "despasito/thermodynamics/calc.py:objective_bubble_pressure", "despasito/thermodynamics/calc.py:objective_dew_pressure"]}
{"id": "C171", "title": "The volumes of the pressure curve stay distinct and in range in double precision", "statement": "Whenever pressure_vs_volume_arrays returns, the specific volumes handed to the spline increase strictly although every step of np.arange, np.linspace and the inversions is rounded (each is by at least a relative 6e-11 larger than the one before), each pressure belongs to the density whose rounded inverse is the volume, and no density lies above the maximum density.", "quantifier": "all pressure functions, all maximum densities, all options whose steps are not below 1e-9 of the largest density or volume (among them the defaults)", "why_tests_cant": "Two neighbouring volumes can only coincide, and the last density only exceed the maximum, for particular last digits of the maximum density and the increment; a test runs through one grid.", "anchors": ["despasito/thermodynamics/calc.py:pressure_vs_volume_arrays", "despasito/thermodynamics/calc.py:pressure_vs_volume_spline"]}
{"id": "C172", "title": "A square-well fluid condenses when it is cold and not when it is hot", "statement": "For every square-well mixture of spheres the isotherm of the pressure starts positive, has a negative part between zero density and any given small density once the temperature is low enough (so that the search for phases finds a loop), and rises strictly up to the largest accepted density once the temperature is high enough (so that it finds one phase only).", "quantifier": "all square-well mixtures with positive sizes and energies, all compositions, all largest densities with a packing fraction up to 0.65", "why_tests_cant": "A statement about all temperatures below and above a threshold, and about all densities of an isotherm; a test evaluates a few.", "anchors": ["despasito/equations_of_state/saft/gamma_sw.py:SaftType.Amonomer", "despasito/equations_of_state/saft/gamma_sw.py:SaftType.Afirst_order", "despasito/equations_of_state/saft/gamma_sw.py:SaftType.Asecond_order", "despasito/equations_of_state/saft/gamma_sw.py:SaftType.Ahard_sphere", "despasito/equations_of_state/saft/gamma_sw.py:SaftType.effective_packing_fraction", "despasito/equations_of_state/saft/saft.py:EosType.pressure"]}
{"id": "C173", "title": "Rounding in the mixing rules is a few units in the last place", "statement": "The attraction and covolume parameters of a mixture computed in double precision differ from those of the mixing rules by at most one rounding (relative 1.12e-16) per pair of components plus eight, and one per component plus one; so they do not depend on the order in which the components are listed, a pure substance has its own parameters, and the pressure computed from the parameters of the components misses that of the equation of state by at most 2e-13 of its two parts.", "quantifier": "all mixtures with parameters and present mole fractions above 1e-20 and interaction parameters up to one; up to 1000 components (20 for the pressure)", "why_tests_cant": "The rounding errors depend on the last digits of all parameters; a test compares with a tolerance at a few mixtures.", "anchors": ["despasito/equations_of_state/cubic/peng_robinson.py:EosType._calc_mixed_parameters", "despasito/equations_of_state/cubic/peng_robinson.py:EosType.pressure"]}
{"id": "C174", "title": "Rounding from the critical constants to the pressure", "statement": "The parameters ai, bi and kappa computed in double precision are within eight and four roundings (relative 1.12e-16 each) and 2e-15 of the formulas; alpha is exactly one at the critical temperature, does not rise on heating while the squared number is not negative, and is within a relative 9e-15 where that number is at least one half; the pressure computed from the critical constants of up to twenty components misses that of the equation of state by at most 2e-13 of its two parts.", "quantifier": "all critical constants between 1e-10 and 1e20, kappa between 0 and 3, acentric factors up to one; any square function that is off by at most two units", "why_tests_cant": "The rounding errors depend on the last digits of all constants; a test compares with a tolerance at a few substances.", "anchors": ["despasito/equations_of_state/cubic/peng_robinson.py:EosType.parameter_refresh", "despasito/equations_of_state/cubic/peng_robinson.py:EosType._calc_temp_dependent_parameters", "despasito/equations_of_state/cubic/peng_robinson.py:EosType.pressure"]}
{"id": "C175", "title": "The fitting objective survives rounding", "statement": "Computed in double precision, the three plain measures of deviation are never negative, are zero exactly when every point of positive weight is matched to the last place, never get smaller when every prediction moves further from its reference, and differ from the documented formulas by at most one rounding (relative 1.12e-16) per point and seven more; a parameter outside its bounds raises the total, and one inside leaves it unchanged.", "quantifier": "all data of doubles with references and positive weights above 1e-50 in size, up to 1e13 points; bounds above 1e-10 in size for the penalty", "why_tests_cant": "That no rounding hides a mismatch, and that worse predictions never look better, are statements about all last digits; a test compares a few numbers.", "anchors": ["despasito/parameter_fitting/fit_functions.py:obj_function_form", "despasito/parameter_fitting/fit_functions.py:compute_obj"]}
{"id": "C176", "title": "Fugacity coefficients survive rounding", "statement": "Computed in double precision, the logarithm of the Peng-Robinson fugacity coefficient of every component differs from the formula by at most one part in 10^12 of the sizes of its terms, and the coefficient itself by at most three parts in 10^12 of that size: a few units of the twelfth digit at ordinary states, although Z - B and the logarithms are formed by subtraction.", "quantifier": "mixtures of up to twenty components with parameters of ordinary size, pressures of 1 to 10^20 Pa, densities up to 98 % of the densest packing", "why_tests_cant": "Cancellation shows only at special states, and a test has no exact coefficients to compare with.", "anchors": ["despasito/equations_of_state/cubic/peng_robinson.py:EosType.fugacity_coefficient"]}
{"id": "C177", "title": "The equilibrium objective survives rounding from the parameters on", "statement": "Computed in double precision from the parameters of a Peng-Robinson mixture and the densities of two phases, the equilibrium objective differs from the formula by at most 7e-12 times the size of the terms of the logarithms, relative to the sum of the shares; so it has the right sign, and the pressure search goes the right way, unless the phases are that close to equilibrium. The new mole fractions have the same relative error.", "quantifier": "mixtures of up to twenty components; phases with coefficients between 1e-40 and 1e40, up to 98 % of the densest packing", "why_tests_cant": "A test with rounded coefficients cannot tell a small objective from a rounding error; this is a statement about all states.", "anchors": ["despasito/equations_of_state/cubic/peng_robinson.py:EosType.fugacity_coefficient", "despasito/thermodynamics/calc.py:equilibrium_objective", "despasito/thermodynamics/calc.py:calc_new_mole_fractions"]}
{"id": "C178", "title": "The density searches ask only for densities that SAFT accepts", "statement": "Every density at which a density search asks the equation of state for a pressure, between its lower bound and one percent above the packing fraction 0.99 of its upper bound, is accepted by SAFT, with both densities of the difference quotient; so no search fails because the equation of state refuses its question.", "quantifier": "all SAFT fluids, temperatures, compositions and isotherms", "why_tests_cant": "The bounds of the search and the guard of the equation of state are in different files; a test would have to look for a liquid just beyond the end of the isotherm.", "anchors": ["despasito/equations_of_state/saft/gamma_mie.py:SaftType.density_max", "despasito/equations_of_state/saft/gamma_mie.py:SaftType.Amonomer", "despasito/equations_of_state/saft/gamma_sw.py:SaftType.density_max", "despasito/equations_of_state/saft/gamma_sw.py:SaftType.Amonomer", "despasito/equations_of_state/saft/saft.py:EosType.density_max", "despasito/thermodynamics/calc.py:calc_liquid_density", "despasito/thermodynamics/calc.py:calc_vapor_density"]}
{"id": "C179", "title": "Every fluid has an isotherm with the default options", "statement": "With the default options the pressure-volume curve, on which every density and phase calculation rests, is computed for every fluid whose parameters the equation of state allows.", "quantifier": "all equations of state, fluids and temperatures", "why_tests_cant": "The fluids that fail are those whose largest density is outside a window that appears nowhere in the code; the tests use small molecules.", "anchors": ["despasito/thermodynamics/calc.py:pressure_vs_volume_arrays", "despasito/equations_of_state/cubic/peng_robinson.py:EosType.density_max", "despasito/equations_of_state/saft/gamma_mie.py:SaftType.density_max", "despasito/equations_of_state/saft/gamma_sw.py:SaftType.density_max"]}
{"id": "C180", "title": "Unbonded fractions are fractions at every accepted density", "statement": "At every density that the equation of state accepts, the fractions of unbonded association sites are above zero and at most one, solve the equations of mass action, and give an association energy that is not positive.", "quantifier": "all sites, bonding volumes, temperatures and accepted densities", "why_tests_cant": "The strengths are positive at the states that tests sample; the sign changes only in dense liquids, where the iteration returns numbers without complaint.", "anchors": ["despasito/equations_of_state/saft/compiled_modules/ext_Aassoc_python.py:calc_Xika", "despasito/equations_of_state/saft/saft.py:EosType.Aassoc", "despasito/equations_of_state/saft/gamma_mie.py:SaftType.calc_gr_assoc", "despasito/equations_of_state/saft/compiled_modules/ext_gamma_mie_python.py:calc_Iij"]}
{"id": "C181", "title": "Association enters pressure and fugacity as the exact energy", "statement": "The association contribution is, at every accepted density, the number that belongs to the solution of the equations of mass action, up to the tolerance of the iteration, and the pressure and the fugacity coefficients computed with it are accurate to that tolerance.", "quantifier": "all sites, densities, temperatures and compositions", "why_tests_cant": "The iteration starts at each density from the result at the previous one, so the energies are not functions of the density alone, and the difference quotient of the pressure divides their error by the step; both are below what a comparison with a stored number shows.", "anchors": ["despasito/equations_of_state/saft/saft.py:EosType.Aassoc", "despasito/equations_of_state/saft/saft.py:EosType.pressure", "despasito/equations_of_state/saft/saft.py:EosType.fugacity_coefficient", "despasito/equations_of_state/saft/compiled_modules/ext_Aassoc_python.py:calc_Xika"]}
{"id": "C182", "title": "Cleaned plot data is a function of the abscissa", "statement": "Cleaning the points of a plot returns every abscissa once, in increasing order, with the ordinate that stood at its first occurrence; cleaning twice changes nothing, and entries that are NaN do not prevent it.", "quantifier": "all arrays of abscissae and ordinates, with and without NaN", "why_tests_cant": "The order of a python set, repeated abscissae and NaN all have to occur together with ordinates that tell the occurrences apart.", "anchors": ["despasito/thermodynamics/calc.py:_clean_plot_data"]}
