{"id": "C01", "title": "Unknown parameters are rejected", "statement": "load_params/check_params raises whenever the user's configuration contains a parameter path that the default configuration does not define; a configuration that is accepted contains only known parameters.", "quantifier": "every user configuration (nested dictionary of any depth and width) and every template", "why_tests_cant": "A misspelled key can appear at any place in an unboundedly large configuration; tests only try a few spellings.", "anchors": [{"file": "mimosa/common/config/parseconfig.py", "symbols": ["check_obsolete_params", "create_leaf_criterium", "check_params"]}, {"file": "mimosa/common/config/utils/nested_dict.py", "symbols": ["flatten"]}]}
{"id": "C02", "title": "Accepted configurations are complete: user value where given, default elsewhere", "statement": "The dictionary returned by check_params has exactly the parameters of the default configuration; each holds the parsed user value if the user gave one at that path, and otherwise the parsed default value.", "quantifier": "every template and every user configuration that check_params accepts, every parameter path", "why_tests_cant": "Needs all combinations of given and omitted parameters (2^60).", "anchors": [{"file": "mimosa/common/config/parseconfig.py", "symbols": ["parse_params", "recursive_traverse", "check_params"]}, {"file": "mimosa/common/config/utils/parsers.py", "symbols": ["GeneralParser.get"]}, {"file": "mimosa/common/config/utils/nested_dict.py", "symbols": ["get_nested", "set_nested"]}]}
{"id": "C03", "title": "Checking an already checked configuration changes nothing", "statement": "Passing the result of load_params() to MIMOSA() (which checks it again) gives the same parameters: check_params(check_params(u)) = check_params(u).", "quantifier": "every user configuration that is accepted", "why_tests_cant": "The round trip must hold for each parser type and every value; tests use default values only.", "anchors": [{"file": "mimosa/common/config/parseconfig.py", "symbols": ["check_params", "load_params"]}, {"file": "mimosa/mimosa.py", "symbols": ["MIMOSA.__init__"]}, {"file": "mimosa/common/config/utils/parsers.py", "symbols": ["*.parse"]}]}
{"id": "C04", "title": "Numeric parameters respect their declared bounds", "statement": "After check_params, each int/float parameter holds a number within [min, max] of its definition, or False if it may be False; any numeric value outside raises ValueError.", "quantifier": "every numeric parameter definition and every user value (int, float, inf, nan, string, bool, None, list, dict)", "why_tests_cant": "Infinitely many values, including non-finite floats and numeric strings.", "anchors": [{"file": "mimosa/common/config/utils/parsers.py", "symbols": ["NumParser.parse", "FloatParser", "IntParser"]}]}
{"id": "C05", "title": "Enum, bool, list, dict and datasource parameters are validated", "statement": "After check_params, an enum parameter holds one of its allowed values, a bool holds True/False, list and dict parameters have every element parsed by the element parser, and a datasource has all five required keys; anything else raises.", "quantifier": "every parameter definition of these types and every user value", "why_tests_cant": "Unbounded element lists and arbitrary wrong-typed values.", "anchors": [{"file": "mimosa/common/config/utils/parsers.py", "symbols": ["EnumParser", "BoolParser", "ListParser", "DictParser", "DatasourceParser"]}]}
{"id": "C06", "title": "False means off - and only for parameters declared can_be_false", "statement": "A parameter is parsed to the switch value False exactly when its definition says can_be_false and the user wrote 0, False, 'False', 'false' or 'no' (or it is a bool parameter); no other parameter silently becomes False.", "quantifier": "every parameter definition and every user value", "why_tests_cant": "The equality 0 == False == 0.0 makes the class of values that switch a parameter off subtle; tests check only literal False.", "anchors": [{"file": "mimosa/common/config/utils/parsers.py", "symbols": ["GeneralParser.check_false", "GeneralParser.is_falsy", "GeneralParser.is_truthy"]}]}
{"id": "C07", "title": "Nested dictionary access laws", "statement": "After set_nested(d, keys, v), get_nested(d, keys) returns v, and the value at any path that does not have keys as a prefix and is not a prefix of keys is unchanged; flatten lists exactly the leaves.", "quantifier": "every nested dictionary, key path and value", "why_tests_cant": "Unbounded depth and aliasing of paths.", "anchors": [{"file": "mimosa/common/config/utils/nested_dict.py", "symbols": ["get_nested", "set_nested", "flatten"]}]}
{"id": "C08", "title": "References between parameters are substituted", "statement": "A string parameter value containing {name} or {a - b} where that path exists and holds a string is replaced by the value with that reference substituted; non-strings, values without references and references to unknown parameters are left unchanged, and no parameter path is added or removed.", "quantifier": "every configuration and every string value with any number of references", "why_tests_cant": "Arbitrarily many references per string and arbitrary evaluation orders.", "anchors": [{"file": "mimosa/common/config/parseconfig.py", "symbols": ["parse_param_values"]}]}
{"id": "C09", "title": "Parsing depends only on the value at each path, not on key order", "statement": "Two user configurations that give the same values at the same paths, written in a different order, are parsed to the same parameters.", "quantifier": "every pair of user configurations with equal look-ups", "why_tests_cant": "All permutations of all configurations.", "anchors": [{"file": "mimosa/common/config/parseconfig.py", "symbols": ["parse_params"]}, {"file": "mimosa/common/config/utils/nested_dict.py", "symbols": ["get_nested"]}]}
{"id": "C10", "title": "Unit aliases are fully expanded", "statement": "quant.unit / quant(...) replaces each default-unit alias (currency_unit, emissionsrate_unit, emissions_unit, temperature_unit, population_unit), including aliases inside an alias's definition, by its bracketed definition: no alias name and no word 'year' is left in the unit string handed to Pint.", "quantifier": "every unit string", "why_tests_cant": "Sequential textual replacement can re-create or miss aliases depending on the surrounding text; all strings must be covered.", "anchors": [{"file": "mimosa/common/units.py", "symbols": ["Quantity._parse_default_units", "Quantity._custom_replace", "Quantity.unit"]}, {"file": "mimosa/inputdata/config/default_units.yaml", "symbols": []}]}
{"id": "C11", "title": "Extrapolation beyond the data is monotone and stabilises", "statement": "extrapolate keeps the input values, continues with the last growth rate brought linearly down to zero at 2150: the continuation is monotone in the direction of the last rate, never changes faster than the last rate (when the data end at 2100 or later) and is constant after 2150.", "quantifier": "every value/year series with at least two points, and every increasing list of extra years", "why_tests_cant": "Ranges over all real series of every length.", "anchors": [{"file": "mimosa/common/data/utils.py", "symbols": ["extrapolate"]}]}
{"id": "C12", "title": "The model's time grid covers the requested period", "statement": "The model has time steps t = 0..tf with year(t) = start + t*dt, year(0) = start, year(tf) >= end and year(tf) < end + dt, whether or not dt divides the period. The step recorded for 2100 is the last one not after 2100 (when the run starts by then).", "quantifier": "every start, end and dt with start <= end and dt > 0", "why_tests_cant": "Rounding behaviour for all real dt.", "anchors": [{"file": "mimosa/concrete_model/instantiate_params.py", "symbols": ["InstantiatedModel._set_instance_data_main"]}]}
{"id": "C13", "title": "Data handed to the model at a model year are the data-store's own values", "statement": "For each model year, DataStore.interp_data returns exactly the value the store computed for that year (no second interpolation error), for each region and variable.", "quantifier": "every time grid accepted by the model and every data series", "why_tests_cant": "All grids; off-by-one errors only show for some dt.", "anchors": [{"file": "mimosa/common/data/datastore.py", "symbols": ["DataStore._create_data_years", "DataStore.interp_data"]}]}
{"id": "C14", "title": "The data-store cache is transparent", "statement": "Because the databases and selected rows are cached at class level and shared by all models in a process, a DataStore query must return the same result after any history of earlier models as it would in a fresh process.", "quantifier": "every sequence of DataStore constructions and queries", "why_tests_cant": "Depends on the whole process history.", "anchors": [{"file": "mimosa/common/data/datastore.py", "symbols": ["DataStore._select_database", "DataStore._get_cached_data_from_database", "DataStore.cached_data", "DataStore.databases"]}]}
{"id": "C15", "title": "Exactly one data row or an exception; '#' suffix aliases", "statement": "A query for (model, scenario, region, variable) returns the data of the unique matching row; zero or several matching rows raise. A region name with a trailing '#' reads the row of the name without it.", "quantifier": "every database table and query", "why_tests_cant": "All tables and duplicates.", "anchors": [{"file": "mimosa/common/data/datastore.py", "symbols": ["DataStore._get_cached_data_from_database"]}]}
{"id": "C16", "title": "Region mapping averages the contributing regions", "statement": "When a regional-parameter file uses another region definition, each output region gets the mean of the numeric values (the first for non-numeric columns) of the input regions mapped to it, ignoring missing values; input regions mapped to nothing do not matter.", "quantifier": "every parameter table and every conversion table", "why_tests_cant": "All tables and many-to-many mappings.", "anchors": [{"file": "mimosa/common/regional_params/region_mappers.py", "symbols": ["RegionMapper.map_regions"]}, {"file": "mimosa/common/regional_params/regional_param_container.py", "symbols": ["RegionalParamContainer"]}]}
{"id": "C17", "title": "Per-region overrides win, otherwise the file value is used", "statement": "A regional parameter takes the value written under params['regions'][region][category][name] when present, and else the value of the regional-parameter file; every model region gets a value or the construction raises.", "quantifier": "every configuration, region, category and parameter name", "why_tests_cant": "All combinations of partially specified overrides (None, {}, missing category, missing name).", "anchors": [{"file": "mimosa/common/regional_params/main.py", "symbols": ["RegionalParamStore.get", "RegionalParamStore.getregional"]}]}
{"id": "C18", "title": "Each model parameter is filled from the source its doc string names", "statement": "A Param with doc '::a.b' receives the configuration value at path a, b (converted to its unit for quantities), 'regional::cat.name' the regional value of category cat and (possibly dotted) name, 'timeandregional::v' the interpolated data; time parameters are always the grid's, and custom_mapping overrides all of these except in combined-damage mode.", "quantifier": "every set of declared parameters and every configuration", "why_tests_cant": "String dispatch over all doc strings, with precedence among four sources.", "anchors": [{"file": "mimosa/concrete_model/instantiate_params.py", "symbols": ["InstantiatedModel._set_instance_data_main", "InstantiatedModel._set_instance_data_coacch"]}]}
{"id": "C19", "title": "Every accepted choice of modules builds a model with uniquely named constraints", "statement": "For each combination of damage, emission-trade, financial-transfer, welfare and objective module that the configuration accepts, create_abstract_model succeeds and all constraints receive different names, so that no constraint replaces another; unknown module names raise NotImplementedError.", "quantifier": "every combination of module names (any strings)", "why_tests_cant": "All strings / all combinations; automatic names depend on how many components exist.", "anchors": [{"file": "mimosa/abstract_model.py", "symbols": ["create_abstract_model"]}, {"file": "mimosa/common/pyomo_utils.py", "symbols": ["add_constraint"]}, {"file": "mimosa/components/emissiontrade/globalcostpool.py", "symbols": ["get_constraints"]}]}
{"id": "C20", "title": "Constraint rules only use declared variables at existing indices", "statement": "Instantiating the model never fails because a rule refers to a variable that the chosen modules do not declare, or to a time index outside 0..tf.", "quantifier": "every module combination, parameter setting, horizon and region set", "why_tests_cant": "Rules are lazily evaluated lambdas: the failing branch may need a particular parameter combination and horizon.", "anchors": [{"file": "mimosa/components/emissions.py", "symbols": ["_get_inertia_and_budget_constraints"]}, {"file": "mimosa/components/effortsharing.py", "symbols": ["_get_percapconv_constraints"]}, {"file": "mimosa/abstract_model.py", "symbols": ["create_abstract_model"]}]}
{"id": "C21", "title": "Optional constraints are active exactly when and where documented", "statement": "Temperature target, carbon budget, inertia limits, minimum levels, post-2100 non-increase, net-zero and effort-sharing constraints generate an actual restriction at time t exactly when their parameter is set and the year condition holds, and are skipped otherwise.", "quantifier": "every parameter setting, time step and region", "why_tests_cant": "Product of switches and horizons.", "anchors": [{"file": "mimosa/components/emissions.py", "symbols": ["_get_temperature_constraints", "_get_inertia_and_budget_constraints"]}, {"file": "mimosa/components/effortsharing.py", "symbols": ["get_constraints"]}]}
{"id": "C22", "title": "Soft minimum / maximum / switch are tight, one-sided, strictly monotone approximations", "statement": "soft_switch stays in (0,1), is strictly increasing and sums to 1 with its mirror image; soft_min(x) is > max(x,0) and <= max(x,0) + scale/(25*pi), strictly increasing and positive; soft_max(x, M) < min(x, M) and >= min(x,M) - scale/(25*pi).", "quantifier": "every real x, every maximum and every positive scale", "why_tests_cant": "All reals; boundary behaviour at 0 and infinity.", "anchors": [{"file": "mimosa/common/pyomo_utils.py", "symbols": ["soft_switch", "soft_min", "soft_max", "scale_to_a"]}]}
{"id": "C23", "title": "Global emissions are the sum of regional emissions at every time", "statement": "In any solution, including t = 0, global emissions equal the sum over regions of regional emissions, regional emissions equal (1 - relative abatement) times baseline for t > 0, and the reported reductions are baseline minus emissions.", "quantifier": "every feasible solution, every time step, any set of regions", "why_tests_cant": "All solutions of a non-linear program.", "anchors": [{"file": "mimosa/components/emissions.py", "symbols": ["_get_emissions_constraints"]}]}
{"id": "C24", "title": "Cumulative emissions are the chosen integral of global emissions", "statement": "In any solution cumulative emissions at t are the trapezoidal integral of global emissions from the start year to year(t) (or dt times the sum of later emissions if trapezoidal integration is off), and are never negative.", "quantifier": "every feasible solution and every t", "why_tests_cant": "Induction over time for all emission paths.", "anchors": [{"file": "mimosa/components/emissions.py", "symbols": ["_get_emissions_constraints"]}]}
{"id": "C25", "title": "Temperature is linear in cumulative emissions and obeys the target", "statement": "In any solution temperature(t) = T0 + TCRE * cumulative emissions(t); with TCRE >= 0 it never falls below T0; with a temperature target it is at most the target at every model year >= 2100.", "quantifier": "every feasible solution and every t", "why_tests_cant": "All solutions.", "anchors": [{"file": "mimosa/components/emissions.py", "symbols": ["_get_temperature_constraints"]}]}
{"id": "C26", "title": "The carbon budget holds from 2100 on", "statement": "With a carbon budget set, cumulative emissions do not exceed the budget at any model year >= 2100, and consequently temperature does not exceed T0 + TCRE*budget there.", "quantifier": "every feasible solution and every model year >= 2100", "why_tests_cant": "All solutions and horizons.", "anchors": [{"file": "mimosa/components/emissions.py", "symbols": ["_get_inertia_and_budget_constraints"]}]}
{"id": "C27", "title": "Inertia limits the speed of emission reductions over any period", "statement": "With inertia i (<= 0) set, emissions between any two model years s <= t fall by at most |i| * (year(t) - year(s)) * initial baseline emissions, regionally respectively globally.", "quantifier": "every feasible solution and every pair of time steps", "why_tests_cant": "Telescoping over arbitrarily long periods.", "anchors": [{"file": "mimosa/components/emissions.py", "symbols": ["_get_inertia_and_budget_constraints"]}]}
{"id": "C28", "title": "Minimum emission levels hold at every time step", "statement": "Global/regional emissions never fall below the configured minimum level at any model year (including the first); abatement stays within [0, 2.5].", "quantifier": "every feasible solution", "why_tests_cant": "All solutions.", "anchors": [{"file": "mimosa/components/emissions.py", "symbols": ["_get_inertia_and_budget_constraints", "_get_emissions_constraints"]}]}
{"id": "C29", "title": "Emission behaviour after 2100", "statement": "With the non-increasing switch on, regional (hence global) emissions are non-increasing over all model years after 2100; with a budget and the net-zero switch on, global emissions are <= 0 from 2100 and cumulative emissions never increase after that. Without a budget the net-zero switch has no effect.", "quantifier": "every feasible solution and every pair of later model years", "why_tests_cant": "Chains of constraints over the horizon.", "anchors": [{"file": "mimosa/components/emissions.py", "symbols": ["_get_inertia_and_budget_constraints"]}]}
{"id": "C30", "title": "Marginal and total abatement costs are consistent", "statement": "The abatement cost is zero for zero abatement, strictly increasing and convex, and equals the area under the marginal abatement cost curve from 0 to the chosen abatement; the carbon price of a solution determines abatement uniquely.", "quantifier": "every abatement level >= 0 and every admissible beta, gamma, learning and scaling factor", "why_tests_cant": "An integral identity over all reals.", "anchors": [{"file": "mimosa/components/mitigation.py", "symbols": ["MAC", "AC"]}]}
{"id": "C31", "title": "Technological learning only makes abatement cheaper", "statement": "In any solution the learning factor is positive; learning over time decreases it by 1/(1+rate)^t; learning by doing decreases with cumulative mitigation and is at most (about) 1 when emissions are not above baseline.", "quantifier": "every feasible solution and every admissible learning rate", "why_tests_cant": "All solutions; involves a soft minimum raised to a negative power.", "anchors": [{"file": "mimosa/components/mitigation.py", "symbols": ["_get_learning_constraints"]}]}
{"id": "C32", "title": "The initial year is the baseline", "statement": "In any solution, at t = 0 abatement, carbon price and abatement cost are zero, emissions equal baseline emissions, climate damages are zero, transfers are zero, GDP net equals the baseline GDP and the temperature is T0 (without emission trade in the first year).", "quantifier": "every feasible solution and every region", "why_tests_cant": "All solutions and module combinations.", "anchors": [{"file": "mimosa/components/mitigation.py", "symbols": ["_get_mac_constraints"]}, {"file": "mimosa/components/cobbdouglas.py", "symbols": ["get_constraints"]}, {"file": "mimosa/components/damages/coacch.py", "symbols": ["damage_fct"]}]}
{"id": "C33", "title": "Mitigation cost accounting", "statement": "In any solution mitigation costs are the area under the MAC plus the trade balance; without trade they are equal and non-negative; relative mitigation costs never fall below the configured minimum level after t = 0 nor below 0 at t = 0; global relative mitigation costs are total costs over total GDP, between the smallest and largest regional ones.", "quantifier": "every feasible solution", "why_tests_cant": "All solutions.", "anchors": [{"file": "mimosa/components/mitigation.py", "symbols": ["_get_mac_constraints"]}]}
{"id": "C34", "title": "Emission trade conserves money and emissions", "statement": "With the emission-trade module the cost balances and the emission-reduction balances sum to zero over regions, allowances sum to global emissions, mitigation costs sum to the total area under the MAC, and the global carbon price lies between the lowest and highest regional carbon price.", "quantifier": "every feasible solution, any number of regions, every t", "why_tests_cant": "Sums over arbitrary region sets.", "anchors": [{"file": "mimosa/components/emissiontrade/emissiontrade.py", "symbols": ["get_constraints"]}]}
{"id": "C35", "title": "Financial transfers are a pure, bounded redistribution", "statement": "With the global damage pool, transfers sum to zero at every t, are zero at t = 0, nobody receives more than its own damages, and no region pays more than the damages of all other regions; relative transfers are transfers over gross GDP.", "quantifier": "every feasible solution, any number of regions", "why_tests_cant": "Sums over arbitrary region sets.", "anchors": [{"file": "mimosa/components/financialtransfer/globaldamagepool.py", "symbols": ["get_constraints"]}, {"file": "mimosa/components/financialtransfer/notransfer.py", "symbols": ["get_constraints"]}]}
{"id": "C36", "title": "GDP accounting identities", "statement": "In any solution investments plus consumption equal net GDP; net GDP is gross GDP minus damages (unless ignored), mitigation costs and transfers; world net GDP is independent of transfers and trade balances.", "quantifier": "every feasible solution and every module combination", "why_tests_cant": "All solutions.", "anchors": [{"file": "mimosa/components/cobbdouglas.py", "symbols": ["get_constraints"]}]}
{"id": "C37", "title": "Capital stock dynamics are well defined and positive", "statement": "In any solution the capital stock follows the documented recursion, is uniquely determined by investments, and is positive whenever the initial stock is positive and net GDP non-negative; gross GDP is positive at each step.", "quantifier": "every feasible solution and every t", "why_tests_cant": "Induction over time.", "anchors": [{"file": "mimosa/components/cobbdouglas.py", "symbols": ["get_constraints"]}, {"file": "mimosa/common/economics.py", "symbols": ["calc_dKdt", "calc_GDP"]}]}
{"id": "C38", "title": "TFP calibration reproduces baseline GDP", "statement": "The calibrated total factor productivity is positive and, with the baseline capital path, the production function returns exactly the baseline GDP at every time step.", "quantifier": "every baseline GDP and population series, every admissible alpha, dk, savings rate and dt", "why_tests_cant": "A loop over time with arbitrary length.", "anchors": [{"file": "mimosa/common/economics.py", "symbols": ["get_TFP_value", "calc_GDP", "calc_dKdt"]}]}
{"id": "C39", "title": "Sea-level rise stays within physical limits and increases", "statement": "In any solution the glacier contribution stays below 0.26 m and the Greenland contribution below 7.3 m, both are non-decreasing in time (as long as the melt per step does not exceed the remaining ice), total sea-level rise is the sum of the three parts and non-negative, and a warmer path gives at least as much sea-level rise.", "quantifier": "every feasible solution and every time horizon", "why_tests_cant": "Non-linear recursion over arbitrarily many steps.", "anchors": [{"file": "mimosa/components/sealevelrise.py", "symbols": ["slr_thermal_expansion", "slr_gsic", "slr_gis"]}]}
{"id": "C40", "title": "Damages: zero at the start, additive, and switchable", "statement": "In any solution total damages are the sum of temperature and sea-level damages, both zero in the initial year; with the no-damage module damages are zero everywhere; with 'ignore damages' GDP is unaffected; in combined mode sea-level damages are zero; unknown functional forms raise NotImplementedError.", "quantifier": "every feasible solution and every coefficient table", "why_tests_cant": "All coefficient tables and solutions.", "anchors": [{"file": "mimosa/components/damages/coacch.py", "symbols": ["get_constraints", "functional_form", "damage_fct"]}, {"file": "mimosa/components/damages/nodamage.py", "symbols": ["get_constraints"]}]}
{"id": "C41", "title": "Damage functions are monotone in temperature and sea level", "statement": "With non-negative coefficients, damages do not decrease with temperature/sea-level rise; the logistic form is bounded, its exponent never exceeds 10, and a linear form ignores b2 and b3.", "quantifier": "every pair of temperatures / sea levels and all admissible coefficients", "why_tests_cant": "All real inputs.", "anchors": [{"file": "mimosa/components/damages/coacch.py", "symbols": ["functional_form", "logistic"]}]}
{"id": "C42", "title": "Effort-sharing regimes equalise relative costs within tolerance", "statement": "With the equal-mitigation-costs (equal-total-costs) regime, in any solution the relative costs of any two regions differ by at most a factor 1.005/0.995 at every (respectively every pre-2100) time step; with other regimes no such restriction exists.", "quantifier": "every feasible solution, every pair of regions and time step", "why_tests_cant": "All solutions and pairs.", "anchors": [{"file": "mimosa/components/effortsharing.py", "symbols": ["_get_equal_mitigation_costs_constraints", "_get_equal_total_costs_constraints"]}, {"file": "mimosa/common/pyomo_utils.py", "symbols": ["RegionalSoftEqualityConstraint"]}]}
{"id": "C43", "title": "Per-capita-convergence shares", "statement": "The allowance shares of all regions sum to one at every time step, are non-negative, start at grandfathering, are population shares from the convergence year on, and (with percapconv_year = False) stay at grandfathering; allowances follow shares times global emissions within 0.001.", "quantifier": "every baseline, population series, convergence year and time step", "why_tests_cant": "All series and years.", "anchors": [{"file": "mimosa/components/effortsharing.py", "symbols": ["percapconv_share_rule", "_get_percapconv_constraints"]}]}
{"id": "C44", "title": "Welfare modules respond correctly to consumption", "statement": "In each welfare module more consumption in one region (others not less) gives strictly more yearly welfare; in the cost-minimising module welfare depends only on total consumption; with a single region cost-minimising and welfare-loss-minimising agree; utility is concave in non-negative consumption exactly when elasmu is at least 8/pi^2 (about 0.81), and then an unequal distribution never gives more welfare than the equal one.", "quantifier": "every feasible solution and every admissible elasmu / inequality aversion", "why_tests_cant": "All reals and region sets.", "anchors": [{"file": "mimosa/components/welfare/utility_fct.py", "symbols": ["calc_utility"]}, {"file": "mimosa/components/welfare/cost_minimising.py", "symbols": []}, {"file": "mimosa/components/welfare/welfare_loss_minimising.py", "symbols": []}, {"file": "mimosa/components/welfare/inequal_aversion_general.py", "symbols": []}]}
{"id": "C45", "title": "The objective is the discounted sum over the horizon", "statement": "In any solution NPV(0) = 0 and NPV(tf) = sum over t>=1 of dt * exp(-PRTP*(year(t)-year(0))) * yearly welfare (or global costs); it is maximised (minimised); more welfare in any year gives a better objective.", "quantifier": "every feasible solution and horizon", "why_tests_cant": "Induction over time.", "anchors": [{"file": "mimosa/components/objective/utility.py", "symbols": ["get_constraints"]}, {"file": "mimosa/components/objective/globalcosts.py", "symbols": ["get_constraints"]}]}
{"id": "C46", "title": "Simulation mode pins the requested variables and relaxes only the named constraints", "statement": "In simulation mode each constrained variable stays within 1e-3 of the imposed values at every time step (and region), exactly the named constraints are deactivated, all others still hold, and an unknown constraint name raises, and the variables, sources and constraint names written in the configuration are the ones used.", "quantifier": "every model, set of imposed variables and list of deactivated constraints", "why_tests_cant": "All subsets and solutions.", "anchors": [{"file": "mimosa/concrete_model/simulation_mode/set_constraints.py", "symbols": ["set_constraints_fixed_variables", "_fixed_data_constraint"]}, {"file": "mimosa/concrete_model/simulation_mode/deactivate_constraints.py", "symbols": ["deactivate_constraints"]}]}
{"id": "C47", "title": "The saved output table is complete and unambiguous", "statement": "save() writes exactly one row per global variable (region 'Global') and one row per region for each regional variable and time-region parameter, with one column per model year in order; distinct model years have distinct column headers; every value is the variable's value at that year and region.", "quantifier": "every model instance", "why_tests_cant": "All instances; header formatting for all grids.", "anchors": [{"file": "mimosa/export/save.py", "symbols": ["save_output", "var_to_row", "rows_to_dataframe"]}, {"file": "mimosa/common/pyomo_utils.py", "symbols": ["get_all_variables", "get_all_time_region_params", "has_time_and_region_dim"]}]}
{"id": "C48", "title": "solve() reports failure; save() writes what was run", "statement": "solve() returns normally if and only if the solver reported status ok; otherwise it raises SolverException after recording the status; before solving and if the solver itself throws the status is None; save() remembers the last file name. The log tells the outcome of each solve that the solver finished: one status line per finished solve, the message that the model was not solved if the status is a warning, and the final NPV and the time only when solve() returns. Every complete parameter file ever written holds the parameters of the model, whatever was called in between.", "quantifier": "every sequence of solve and save calls and every solver outcome", "why_tests_cant": "Histories of calls with any outcome.", "anchors": [{"file": "mimosa/mimosa.py", "symbols": ["MIMOSA.solve", "MIMOSA.save", "SolverException"]}, {"file": "mimosa/export/save.py", "symbols": ["save_output"]}]}
{"id": "C49", "title": "The no-policy path is a solution", "statement": "With no policy target, and baseline data compatible with the configured limits (minimum cost level, non-increasing emissions, sea-level damage range), zero abatement everywhere with the resulting economy is a feasible solution, so such a configuration is never infeasible.", "quantifier": "every baseline data set, horizon and region set", "why_tests_cant": "An existence statement over an infinite domain.", "anchors": [{"file": "mimosa/abstract_model.py", "symbols": ["create_abstract_model"]}, {"file": "mimosa/components/cobbdouglas.py", "symbols": ["get_constraints"]}]}
{"id": "C50", "title": "A configured carbon budget reaches the optimisation", "statement": "If the user writes emissions.carbonbudget = B in the configuration, every solution of the model built from it has cumulative emissions at most B (in GtCO2) at every model year from 2100.", "quantifier": "every accepted configuration and every feasible solution", "why_tests_cant": "Spans parsing, unit conversion, instantiation and the constraint.", "anchors": [{"file": "mimosa/common/config/parseconfig.py", "symbols": ["check_params"]}, {"file": "mimosa/concrete_model/instantiate_params.py", "symbols": ["_set_instance_data_main"]}, {"file": "mimosa/components/emissions.py", "symbols": ["_get_inertia_and_budget_constraints"]}]}
{"id": "C51", "title": "Units in the output are printed per year", "statement": "get_unit rewrites each '/a' (annum) not followed by a letter to '/yr' and nothing else, so applying it twice changes nothing and units such as '/atm' are untouched.", "quantifier": "every unit string", "why_tests_cant": "All strings.", "anchors": [{"file": "mimosa/common/pyomo_utils.py", "symbols": ["get_unit"]}]}
{"id": "C52", "title": "Heat-mortality equations", "statement": "In any solution with COACCH damages the reported mortality is the quadratic temperature response of the region's coefficients and the mortality cost is proportional to mortality and population; these reporting variables never restrict feasibility.", "quantifier": "every feasible solution", "why_tests_cant": "All solutions.", "anchors": [{"file": "mimosa/components/damages/coacch.py", "symbols": ["get_constraints"]}]}
{"id": "C53", "title": "Reporting variables do not restrict the optimisation", "statement": "Variables that only report results (relative cumulative emissions, global relative costs, cost per reduction, area under MAC, mortality) are uniquely determined by the decision variables and any values of the other variables can be completed with them.", "quantifier": "every assignment of the remaining variables satisfying their constraints", "why_tests_cant": "All assignments.", "anchors": [{"file": "mimosa/components/emissions.py", "symbols": ["_get_emissions_constraints"]}, {"file": "mimosa/components/mitigation.py", "symbols": ["_get_mac_constraints"]}]}
{"id": "C54", "title": "A solution is determined by its abatement path", "statement": "Without trade and transfers, two solutions with the same relative abatement in each region and time step coincide in all emission, temperature, sea-level, damage, cost, GDP, consumption, welfare and objective variables. With exogenous baseline emissions the economy part assumes that the savings for one step's abatement costs do not use up the capital stock. With the carbon-intensity baseline (the default), where emissions depend on GDP and GDP on damages and abatement costs of the same year, it assumes data with which more emissions mean no less damage and no more learning, and that in one of the two solutions no region abates more than all its emissions and no damage exceeds GDP.", "quantifier": "every pair of feasible solutions of a model without trade and transfers, both ways to define baseline emissions, every region and time step", "why_tests_cant": "All pairs of solutions over any horizon.", "anchors": [{"file": "mimosa/components/emissions.py", "symbols": []}, {"file": "mimosa/components/mitigation.py", "symbols": []}, {"file": "mimosa/components/sealevelrise.py", "symbols": []}]}
{"id": "C55", "title": "Configured climate quantities reach the optimisation with their units", "statement": "If the configuration gives a temperature target, minimum emission levels, an initial temperature or a TCRE as a quantity with a unit, every solution of the model built from it respects the value converted by Pint to the model's unit: temperature stays below the target from 2100 on, emissions stay above the minimum levels, and warming is linear in cumulative emissions with that intercept and slope.", "quantifier": "every user configuration accepted by MIMOSA, every unit conversion, every solution, every model year and region", "why_tests_cant": "All configurations, data and solutions; the chain passes through the parser, the references, the doc-string lookup, unit conversion and the constraints.", "anchors": [{"file": "mimosa/common/config/parseconfig.py", "symbols": ["check_params", "parse_param_values"]}, {"file": "mimosa/concrete_model/instantiate_params.py", "symbols": ["InstantiatedModel"]}, {"file": "mimosa/components/emissions.py", "symbols": ["get_constraints"]}]}
{"id": "C56", "title": "Configured numbers, switches and inertia limits are the ones used", "statement": "Every numerical setting (discount rate, elasticity, MAC exponents, depreciation, ...) has in the model exactly the value float(user value) and lies in its documented range; every on/off setting is on exactly when written as on; the inertia limits bound how fast emissions fall, or are absent when written as off.", "quantifier": "every accepted user configuration, every setting in the tables, every solution", "why_tests_cant": "All configurations and settings.", "anchors": [{"file": "mimosa/inputdata/config/config_default.yaml", "symbols": []}, {"file": "mimosa/common/config/utils/parsers.py", "symbols": ["FloatParser", "BoolParser"]}, {"file": "mimosa/concrete_model/instantiate_params.py", "symbols": ["InstantiatedModel"]}]}
{"id": "C57", "title": "The chosen SSP drives population, GDP and emissions", "statement": "With the data sources left at their defaults, the population, baseline GDP and baseline emissions the model uses at each time step and region are the (unit-converted, extended, interpolated) values of the chosen SSP's scenario in that year, all three from the same SSP, and first-year emissions of every solution are that SSP's start-year data.", "quantifier": "every accepted user configuration, every SSP, every data file, every history of earlier models in the process, every time step and region", "why_tests_cant": "All configurations, files and process histories.", "anchors": [{"file": "mimosa/common/config/parseconfig.py", "symbols": ["parse_param_values"]}, {"file": "mimosa/common/data/datastore.py", "symbols": ["DataStore"]}, {"file": "mimosa/concrete_model/instantiate_params.py", "symbols": ["InstantiatedModel"]}]}
{"id": "C58", "title": "Replaying saved results", "statement": "Take the results of a solved run, write them to CSV as save() does (numbers rounded to six significant digits), read the file back and use it as the data file of simulation mode. If every exported value is smaller than 1000 in absolute value, the saved trajectory satisfies the simulation-mode constraints built from the file (tolerance 1e-3); for larger values the rounding can exceed the tolerance so that the original solution is not accepted by its own replay.", "quantifier": "every solution, every choice of replayed variables, every set of regions and years", "why_tests_cant": "All values and all choices of variables; depends on the interaction of rounding error and tolerance.", "anchors": [{"file": "mimosa/export/save.py", "symbols": ["save_output", "var_to_row", "rows_to_dataframe"]}, {"file": "mimosa/concrete_model/simulation_mode/set_constraints.py", "symbols": ["set_constraints_fixed_variables", "_extra_regional_constraint", "_extra_global_constraint"]}]}
{"id": "C59", "title": "Loosening limits never removes solutions", "statement": "If a configuration is changed only by loosening or dropping limits (a higher or absent temperature target or carbon budget, faster allowed emission reductions, lower minimum emission levels, no monotonicity or net-zero requirement, a lower floor on relative mitigation costs, no effort-sharing regime), every assignment that satisfied the old model satisfies the new one, and the optimum of the new model is at least as good as that of the old; and limits that an optimum without them already respects change nothing: it stays an optimum with them.", "quantifier": "all module choices, data, configurations, pairs of limits where one is looser than the other, and solutions (time step and first-year emissions not negative)", "why_tests_cant": "A test compares two solver runs on one data set; the claim is about every feasible point of every instance and every combination of limits.", "anchors": [{"file": "mimosa/components/emissions.py", "symbols": ["get_constraints"]}, {"file": "mimosa/components/mitigation.py", "symbols": ["rel_mitigation_costs_min_level"]}, {"file": "mimosa/components/effortsharing.py", "symbols": ["get_constraints"]}]}
{"id": "C60", "title": "The order of the regions does not matter", "statement": "Listing the same regions in another order in the configuration gives a model with the same solutions, the same objective values and the same optimal solutions.", "quantifier": "all permutations of the list of regions, all module choices, data and solutions", "why_tests_cant": "There are n! orders and infinitely many data sets; a test tries a few.", "anchors": [{"file": "mimosa/abstract_model.py", "symbols": ["create_abstract_model"]}, {"file": "mimosa/common/pyomo_utils.py", "symbols": ["GeneralConstraint", "RegionalConstraint"]}, {"file": "mimosa/components/cobbdouglas.py", "symbols": ["get_constraints"]}, {"file": "mimosa/components/damages/coacch.py", "symbols": ["get_constraints"]}, {"file": "mimosa/components/damages/nodamage.py", "symbols": ["get_constraints"]}, {"file": "mimosa/components/effortsharing.py", "symbols": ["get_constraints"]}, {"file": "mimosa/components/emissions.py", "symbols": ["get_constraints"]}, {"file": "mimosa/components/emissiontrade/emissiontrade.py", "symbols": ["get_constraints"]}, {"file": "mimosa/components/emissiontrade/globalcostpool.py", "symbols": ["get_constraints"]}, {"file": "mimosa/components/emissiontrade/notrade.py", "symbols": ["get_constraints"]}, {"file": "mimosa/components/financialtransfer/globaldamagepool.py", "symbols": ["get_constraints"]}, {"file": "mimosa/components/financialtransfer/notransfer.py", "symbols": ["get_constraints"]}, {"file": "mimosa/components/mitigation.py", "symbols": ["get_constraints"]}, {"file": "mimosa/components/objective/globalcosts.py", "symbols": ["get_constraints"]}, {"file": "mimosa/components/objective/utility.py", "symbols": ["get_constraints"]}, {"file": "mimosa/components/sealevelrise.py", "symbols": ["get_constraints"]}, {"file": "mimosa/components/welfare/cost_minimising.py", "symbols": ["get_constraints"]}, {"file": "mimosa/components/welfare/inequal_aversion_general.py", "symbols": ["get_constraints"]}, {"file": "mimosa/components/welfare/welfare_loss_minimising.py", "symbols": ["get_constraints"]}]}
{"id": "C61", "title": "The model does not look ahead", "statement": "A solution for a horizon is, restricted to any earlier final time step, a solution of the same model with that shorter horizon: no constraint of an early year depends on later years.", "quantifier": "all horizons, all shorter horizons, all module choices, data and solutions", "why_tests_cant": "It is a statement about every constraint at every time step for every horizon; a test runs one pair of horizons on one data set.", "anchors": [{"file": "mimosa/abstract_model.py", "symbols": ["create_abstract_model"]}, {"file": "mimosa/components/cobbdouglas.py", "symbols": ["get_constraints"]}, {"file": "mimosa/components/damages/coacch.py", "symbols": ["get_constraints"]}, {"file": "mimosa/components/damages/nodamage.py", "symbols": ["get_constraints"]}, {"file": "mimosa/components/effortsharing.py", "symbols": ["get_constraints"]}, {"file": "mimosa/components/emissions.py", "symbols": ["get_constraints"]}, {"file": "mimosa/components/emissiontrade/emissiontrade.py", "symbols": ["get_constraints"]}, {"file": "mimosa/components/emissiontrade/globalcostpool.py", "symbols": ["get_constraints"]}, {"file": "mimosa/components/emissiontrade/notrade.py", "symbols": ["get_constraints"]}, {"file": "mimosa/components/financialtransfer/globaldamagepool.py", "symbols": ["get_constraints"]}, {"file": "mimosa/components/financialtransfer/notransfer.py", "symbols": ["get_constraints"]}, {"file": "mimosa/components/mitigation.py", "symbols": ["get_constraints"]}, {"file": "mimosa/components/objective/globalcosts.py", "symbols": ["get_constraints"]}, {"file": "mimosa/components/objective/utility.py", "symbols": ["get_constraints"]}, {"file": "mimosa/components/sealevelrise.py", "symbols": ["get_constraints"]}, {"file": "mimosa/components/welfare/cost_minimising.py", "symbols": ["get_constraints"]}, {"file": "mimosa/components/welfare/inequal_aversion_general.py", "symbols": ["get_constraints"]}, {"file": "mimosa/components/welfare/welfare_loss_minimising.py", "symbols": ["get_constraints"]}]}
{"id": "C62", "title": "Trade and transfers only add options", "statement": "Every solution without emission trade becomes a solution of the model with emission trade when nothing is traded, with all other variables unchanged; every solution without transfers in which no region gains from climate change becomes a solution with the global damage pool when nothing is transferred. Hence allowing them never worsens the optimum. With a single region the balances and transfers are zero and trade changes nothing.", "quantifier": "all data, configurations, other module choices and solutions", "why_tests_cant": "The claim relates all feasible points of two different models; a test only sees one solver result of each.", "anchors": [{"file": "mimosa/components/emissiontrade/notrade.py", "symbols": ["get_constraints"]}, {"file": "mimosa/components/emissiontrade/emissiontrade.py", "symbols": ["get_constraints"]}, {"file": "mimosa/components/financialtransfer/notransfer.py", "symbols": ["get_constraints"]}, {"file": "mimosa/components/financialtransfer/globaldamagepool.py", "symbols": ["get_constraints"]}, {"file": "mimosa/components/mitigation.py", "symbols": ["mitigation_costs"]}]}
{"id": "C63", "title": "A model does not depend on the history of the process", "statement": "After any sequence of earlier MIMOSA constructions in the same process, successful or failed, constructing MIMOSA with a configuration gives the same configuration, instance data and exceptions as in a fresh process, and a Pyomo model that is identical up to the running numbers in the names of unnamed constraints; in particular it has the same solutions and objective.", "quantifier": "all configurations, input files, histories of earlier constructions and values of the running constraint number", "why_tests_cant": "The class-level cache and the constraint counter carry state between runs; a test can only exercise particular orders of particular runs.", "anchors": [{"file": "mimosa/common/data/datastore.py", "symbols": ["DataStore", "_select_database", "_get_cached_data_from_database"]}, {"file": "mimosa/common/pyomo_utils.py", "symbols": ["GeneralConstraint.__init__"]}, {"file": "mimosa/mimosa.py", "symbols": ["MIMOSA.__init__"]}, {"file": "mimosa/concrete_model/instantiate_params.py", "symbols": ["InstantiatedModel"]}]}
{"id": "C64", "title": "Reported world averages of abatement agree with the regional results", "statement": "In every solution after the first year: the reported world cost per unit of emission reduction is at most total costs over total reductions and at least total costs over (total reductions + 1/(25 pi)); it has the sign of the total costs whatever the reductions; reduction per cost unit is its reciprocal up to that smoothing; the average cost is below the highest carbon price divided by beta + 1. Reported relative cumulative emissions are cumulative emissions over cumulative baseline emissions; with a given non-negative baseline they lie between 0 and 1 and are 1 without abatement.", "quantifier": "all data, configurations, module choices, solutions and time steps", "why_tests_cant": "The ratios must be well defined and consistent in every feasible point, including those with zero or negative totals where an unsmoothed quotient would fail.", "anchors": [{"file": "mimosa/components/mitigation.py", "symbols": ["global_cost_per_emission_reduction_unit", "global_emission_reduction_per_cost_unit"]}, {"file": "mimosa/components/emissions.py", "symbols": ["emission_relative_cumulative"]}, {"file": "mimosa/common/pyomo_utils.py", "symbols": ["soft_min"]}]}
{"id": "C65", "title": "A feasible run has an optimum", "statement": "Whenever the constraints of a run can be satisfied at all, the objective (utility or global costs) is bounded over all solutions and some solution attains the best value; limits of solutions are solutions. In particular a run without policy target always has an optimum. So a solver failure is never due to an ill-posed optimisation problem.", "quantifier": "every combination of modules and settings, every data set with the usual signs, exogenous or carbon-intensity baseline; the space of solutions is infinite-dimensional in time steps and regions", "why_tests_cant": "Existence of a maximum over an uncountable set of solutions cannot be observed by running a local solver.", "anchors": [{"file": "mimosa/abstract_model.py", "symbols": ["create_abstract_model"]}, {"file": "mimosa/components/objective/utility.py", "symbols": ["get_constraints"]}, {"file": "mimosa/components/objective/globalcosts.py", "symbols": ["get_constraints"]}]}
{"id": "C66", "title": "Without damages and targets, nothing is abated", "statement": "If damages do not enter the objective, there are no policy targets and mitigation costs may not be negative, then not abating is optimal, and in every optimum all mitigation costs, carbon prices and abatement after the first year are zero and emissions equal baseline emissions. No solution is richer (gross or net product, consumption) in any region at any time than one without mitigation costs.", "quantifier": "every data set, welfare module, objective, with and without emission trade, every optimal solution", "why_tests_cant": "The repository's test checks one run of a local solver to a tolerance; the claim is about every global optimum of every data set.", "anchors": [{"file": "mimosa/components/mitigation.py", "symbols": ["get_constraints"]}, {"file": "mimosa/components/cobbdouglas.py", "symbols": ["get_constraints"]}, {"file": "tests/modeltests/test_baseline_nodamages.py", "symbols": ["test_zero_mitigation_costs"]}]}
{"id": "C67", "title": "The configured modules are the ones that are solved", "statement": "For every configuration that MIMOSA accepts, the damage, emission-trade, financial-transfer, welfare and objective modules of the optimisation problem are exactly the ones named under `model:` (the documented default for each one that is not mentioned): `nodamage` gives a model without damages, `notrade` one in which every region pays for its own abatement only, and so on; no name is read from another entry.", "quantifier": "all accepted configurations, data files and earlier runs; all solutions of the resulting model", "why_tests_cant": "There are 72 combinations of modules and unboundedly many configurations around them; a test checks a few.", "anchors": [{"file": "mimosa/mimosa.py", "symbols": ["MIMOSA.get_abstract_model"]}, {"file": "mimosa/abstract_model.py", "symbols": ["create_abstract_model"]}, {"file": "mimosa/inputdata/config/config_default.yaml", "symbols": ["model"]}]}
{"id": "C68", "title": "Cheaper abatement, faster learning and milder damages never make the outcome worse", "statement": "Take two runs that differ only in the cost of abatement (`economics - MAC - gamma`, the regional MAC scaling, the rate of learning over time) and in the damage scale factor, the second one with costs not higher, learning not slower and damages not larger. (a) With the same relative abatement in both, emissions, temperature and sea level are the same, and in every region and year the carbon price, abatement costs and damages are not higher and capital, GDP and consumption are not lower in the second run; welfare is not lower. (b) Every abatement path possible in the first run is possible in the second. (c) So the optimal discounted welfare is not lower in the second run. (d) With emission trade, whatever the payments between regions, the same abatement has the same emissions and climate, no higher carbon prices and damages, and its total world costs are not higher; there are payments with which no region bears higher costs or has less capital, GDP or consumption; and (c) holds too.", "quantifier": "all admissible parameters, all pairs of settings ordered in this way, all feasible abatement paths of a run with or without emission trade, without transfers or effort-sharing regime and with reversible damages", "why_tests_cant": "It compares two solutions of nonlinear systems over a continuum of settings and policies; a test compares a few solver runs.", "anchors": [{"file": "mimosa/components/mitigation.py", "symbols": ["MAC", "AC", "get_constraints"]}, {"file": "mimosa/components/damages/coacch.py", "symbols": ["get_constraints"]}, {"file": "mimosa/components/cobbdouglas.py", "symbols": ["get_constraints"]}, {"file": "mimosa/components/objective/utility.py", "symbols": ["get_constraints"]}]}
{"id": "C69", "title": "The regional coefficients in the equations are those of the configured files and choices", "statement": "For every accepted configuration, each regional coefficient used in the equations is, for every region, the value of the documented regional parameter: the initial capital factor, the MAC level in the column chosen as `economics - MAC - regional calibration factor`, the coefficients and functional forms of the damage functions (sea-level damages with or without adaptation as chosen), the damage factor of the chosen quantile, and the mortality coefficients. If combined damages are switched on, there are no separate sea-level damages and total damages are scale factor times the quadratic function of temperature with the combined coefficients of the chosen quantile and adaptation, relative to the first year.", "quantifier": "all accepted configurations, regional files, earlier runs and solutions of the resulting model; all regions and years", "why_tests_cant": "Column names are assembled from strings of the configuration at run time; unboundedly many configurations and files, a test reads a few.", "anchors": [{"file": "mimosa/components/damages/coacch.py", "symbols": ["slr_param_name", "get_constraints"]}, {"file": "mimosa/concrete_model/instantiate_params.py", "symbols": ["_set_instance_data_coacch", "_set_instance_data_main"]}, {"file": "mimosa/components/mitigation.py", "symbols": ["get_constraints"]}, {"file": "mimosa/components/cobbdouglas.py", "symbols": ["get_constraints"]}]}
{"id": "C70", "title": "The ways to switch damages off agree", "statement": "(a) With `damage module: nodamage` no damage setting (scale factor, damage and mortality coefficients, `ignore damages`) has any effect on which solutions exist. (b) The COACCH module with scale factor 0 and the no-damage module have the same solutions: every solution of one gives a solution of the other in which all values other than damages and mortality are the same, and damages are zero; so the optimal objective value is the same. (c) With `ignore damages` switched on, a welfare objective, no transfers and no equal-total-cost regime, every solution with COACCH damages gives one without damages and the same other values; conversely too as long as the ignored sea-level damages stay within their bounds of -50% and 70% of GDP; so ignoring damages never gives a better optimum than having none.", "quantifier": "all parameters and data with known functional forms, all module choices, all solutions and optima", "why_tests_cant": "The three switches act in different components (damage module, scale factor, GDP equation); that they agree on every solution and on the optimum is a statement about all value assignments, which runs of a solver cannot establish.", "anchors": [{"file": "mimosa/components/damages/nodamage.py", "symbols": ["get_constraints"]}, {"file": "mimosa/components/damages/coacch.py", "symbols": ["get_constraints", "functional_form", "damage_fct"]}, {"file": "mimosa/components/cobbdouglas.py", "symbols": ["get_constraints"]}]}
{"id": "C71", "title": "Welfare and objective settings rank outcomes, they do not restrict them", "statement": "Welfare module, objective module, elasticity of marginal utility, inequality aversion and discount rate (PRTP) decide which possible pathway is best, not which pathways are possible: a pathway (all values other than utility, welfare and the net present value) that satisfies the model under one choice satisfies it under every other valid choice. Utility, yearly welfare and objective value are determined by the pathway and the settings. Hence the optimum of the cost objective has the lowest discounted sum of abatement and damage costs among all pathways possible under any welfare settings, and the optimum of any objective is at least as good by its own measure as every pathway possible under other settings.", "quantifier": "all module choices, parameters, data, welfare settings (elasticity and inequality aversion other than 1) and all solutions and optima", "why_tests_cant": "A claim about the whole feasible set under two configurations; a test compares the two points the solver returns.", "anchors": [{"file": "mimosa/components/welfare/welfare_loss_minimising.py", "symbols": ["get_constraints"]}, {"file": "mimosa/components/welfare/inequal_aversion_general.py", "symbols": ["get_constraints"]}, {"file": "mimosa/components/welfare/cost_minimising.py", "symbols": ["get_constraints"]}, {"file": "mimosa/components/objective/utility.py", "symbols": ["get_constraints"]}, {"file": "mimosa/components/objective/globalcosts.py", "symbols": ["get_constraints"]}]}
{"id": "C72", "title": "A less sensitive climate never makes the outcome worse", "statement": "With a lower climate sensitivity (TCRE), and otherwise the same or milder cost and damage parameters, no transfers or effort sharing, exogenous baseline and damage functions that rise with temperature and sea level: the same abatement gives the same emissions, a temperature and sea level that are not higher in any model year, carbon prices, abatement costs and damages that are not larger, and a capital stock, GDP, consumption and welfare that are not smaller in any region and year; every policy that is possible (targets, budgets and inertia limits included) stays possible; and the optimal utility is not lower. With emission trade the comparison of regional costs and economies holds for suitable payments between regions, the rest as it stands.", "quantifier": "all TCRE values between 0 and the original, all milder cost and damage parameters, all regions, horizons, time steps, data and solutions with damages between 0 and 100% of GDP and melt per step below the total ice", "why_tests_cant": "Compares all solutions of two parametrisations through the recursive sea-level, damage and capital equations for any number of steps; runs of a solver only compare single numbers that moreover depend on its tolerance.", "anchors": [{"file": "mimosa/components/emissions.py", "symbols": ["get_constraints"]}, {"file": "mimosa/components/sealevelrise.py", "symbols": ["get_constraints", "slr_thermal_expansion", "slr_gsic", "slr_gis"]}, {"file": "mimosa/components/damages/coacch.py", "symbols": ["get_constraints", "functional_form"]}, {"file": "mimosa/components/cobbdouglas.py", "symbols": ["get_constraints"]}]}
{"id": "C73", "title": "Preprocessing loses nothing, and the reported values solve the original model", "statement": "Before solving, MIMOSA lets Pyomo merge variables that an equality constraint links, fix variables whose value an equality constraint determines, and fix variables with equal bounds (merging, and fixing by equations, only if there is more than one region); after solving, it restores the merged variables. For every concrete model: every point that satisfies the preprocessed model gives, after restoring, values that satisfy all constraints of the original model, and all its bounds except possibly those of variables whose value equations determine; those too, with the same objective value, if the equations do not contradict the bounds (in particular if any solution exists, even if only without targets, emission limits and effort sharing). Every solution of the original model satisfies the preprocessed model and is not changed by restoring; if preprocessing raises, there is no solution; a point is optimal for the preprocessed model exactly if the restored values are optimal for the original. Hence after solve() the object's values solve the original model whenever the solver returned a feasible point of what it was sent, whatever it left in merged variables. Without restoring this would be false.", "quantifier": "all module choices, parameters, data, all points of the preprocessed model and all solver outcomes", "why_tests_cant": "Merging depends on the structure of all constraints and on parameter values (for example a population of exactly 1); that no solution is lost or invented is a statement about all assignments.", "anchors": [{"file": "mimosa/mimosa.py", "symbols": ["MIMOSA.preprocessing", "MIMOSA.postprocessing", "MIMOSA.solve"]}]}
{"id": "C74", "title": "A region meets the other regions only through the climate", "statement": "Without emission trading and without transfers, what the model reports for one region depends on the rest of the world only through the path of cumulative emissions (and, unless learning by doing is switched off, the cumulative global baseline emissions it is measured against). Take two runs with the same time grid and the same climate, damage, technology and economy settings and the same data for region r; all other regions - their number, names and data - the targets, budgets and other limits, the effort-sharing regime, the welfare and the objective module may differ. If both solutions have the same cumulative emissions, temperature, sea level and technology are the same and so are the damages of region r; if r also abates the same fraction in both, its baseline, emissions, carbon price and abatement costs are the same, and (as long as the savings on one step's abatement cost stay below its capital stock) so are its capital, GDP, investments and consumption.", "quantifier": "all pairs of parameter sets that agree on one region's data and the global settings, all pairs of solutions with the same cumulative emissions, every region common to both, every time step", "why_tests_cant": "it compares two arbitrary worlds (any number of other regions with any data) along arbitrary paths, and needs uniqueness of the implicit capital equation in each step", "anchors": [{"file": "mimosa/components/emissions.py", "symbols": ["get_constraints"]}, {"file": "mimosa/components/mitigation.py", "symbols": ["get_constraints", "AC", "MAC"]}, {"file": "mimosa/components/damages/coacch.py", "symbols": ["get_constraints", "damage_fct"]}, {"file": "mimosa/components/cobbdouglas.py", "symbols": ["get_constraints"]}, {"file": "mimosa/common/economics.py", "symbols": ["get_TFP_value"]}]}
{"id": "C75", "title": "Without damages no more is abated than the targets require", "statement": "If damages do not enter the objective, abatement is only a cost. (a) Of two feasible runs of the same model with savings rate below one, the one with the lower abatement costs everywhere has at least the capital, GDP, net GDP and consumption of the other in every region and year, and a better objective value, strictly better if costs are lower anywhere. (b) Without transfers, effort sharing and damages, with or without emission trade, with an exogenous baseline and an ordinary cost curve whose learning by doing is not stronger than its convexity (learning rate between 2^-MAC_beta and 1), any fraction of a feasible policy is a feasible policy too, as long as the targets hold for the corresponding mixture of the policy and the baseline; the world's costs fall at least in proportion, although less is learned, and no region's costs rise: without trade every region's costs fall in proportion, with emission trade the payments can be chosen such that no region pays more. (c) Hence an optimum of such a model in which the world has any abatement costs attains the temperature target, the carbon budget or the net-zero requirement exactly in some year from 2100 on; with a budget alone, the budget is spent exactly.", "quantifier": "all admissible parameter sets and all solutions (for c: all optimal solutions, both objectives and every welfare module), all fractions between 0 and 1, every region and time step; assumes the savings for one step's abatement costs do not exceed the capital stock", "why_tests_cant": "it is a statement about the optimum, which a run only approximates, over all parameter values; the proof compares the optimum with a perturbed policy that no run visits and needs an induction over time for the implicit capital equation and for learning", "anchors": [{"file": "mimosa/components/mitigation.py", "symbols": ["MAC", "AC", "_get_learning_constraints", "get_constraints"]}, {"file": "mimosa/components/emissions.py", "symbols": ["get_constraints"]}, {"file": "mimosa/components/cobbdouglas.py", "symbols": ["get_constraints"]}, {"file": "mimosa/components/objective/utility.py", "symbols": ["get_constraints"]}, {"file": "mimosa/components/objective/globalcosts.py", "symbols": ["get_constraints"]}]}
{"id": "C76", "title": "The names of the regions carry no meaning", "statement": "The optimisation only sees the data of the regions, not their names: if the same regional data are given under other (distinct) region names, in any order, then values of all variables solve the renamed model exactly when the correspondingly relabelled values solve the original one, with the same objective value, and the same for optimal solutions. Data of regions that are not in the region list and data beyond the last model year have no influence. Consequently two regions with identical data can be exchanged in any (optimal) solution; if the optimal abatement is unique they abate the same; and two such regions with the same abatement have the same emissions, damages, carbon price and (without trade and transfers) costs, capital and GDP.", "quantifier": "all parameter values, all renamings, all modules, all candidate solutions", "why_tests_cant": "a test runs the model with a few sets of names; the claim compares all solutions under all renamings and all data", "anchors": [{"file": "mimosa/abstract_model.py", "symbols": ["create_abstract_model"]}, {"file": "mimosa/common/pyomo_utils.py", "symbols": ["RegionalConstraint"]}, {"file": "mimosa/components/cobbdouglas.py", "symbols": ["get_constraints"]}, {"file": "mimosa/components/damages/coacch.py", "symbols": ["get_constraints"]}, {"file": "mimosa/components/damages/nodamage.py", "symbols": ["get_constraints"]}, {"file": "mimosa/components/effortsharing.py", "symbols": ["get_constraints"]}, {"file": "mimosa/components/emissions.py", "symbols": ["get_constraints"]}, {"file": "mimosa/components/emissiontrade/emissiontrade.py", "symbols": ["get_constraints"]}, {"file": "mimosa/components/emissiontrade/globalcostpool.py", "symbols": ["get_constraints"]}, {"file": "mimosa/components/emissiontrade/notrade.py", "symbols": ["get_constraints"]}, {"file": "mimosa/components/financialtransfer/globaldamagepool.py", "symbols": ["get_constraints"]}, {"file": "mimosa/components/financialtransfer/notransfer.py", "symbols": ["get_constraints"]}, {"file": "mimosa/components/mitigation.py", "symbols": ["get_constraints"]}, {"file": "mimosa/components/objective/globalcosts.py", "symbols": ["get_constraints"]}, {"file": "mimosa/components/objective/utility.py", "symbols": ["get_constraints"]}, {"file": "mimosa/components/sealevelrise.py", "symbols": ["get_constraints"]}, {"file": "mimosa/components/welfare/cost_minimising.py", "symbols": ["get_constraints"]}, {"file": "mimosa/components/welfare/inequal_aversion_general.py", "symbols": ["get_constraints"]}, {"file": "mimosa/components/welfare/welfare_loss_minimising.py", "symbols": ["get_constraints"]}]}
{"id": "C77", "title": "With emission trade the optimum abates where it is cheapest", "statement": "In a run with emission trading that maximises utility (no transfers, no effort-sharing regime, exogenous baseline, no required minimum of strictly positive costs), or in a run that minimises global costs without damages, with or without trading: no other distribution of the abatement over regions that gives the same world emissions in every year has total abatement costs that are no higher in every year and lower in one. Without limits on how fast one region's emissions change, the total abatement costs of every single year are the lowest with which that year's world emissions can be reached. The regional carbon prices are ordered accordingly: a region that could abate less does not have a higher carbon price than a region that could abate more; so, without regional limits, all regions below the upper bound on abatement have the same carbon price, which with trading is the reported global carbon price, and regions with the same cost level abate the same share. (For utility: damages are at most the product, and the savings for one step's abatement costs stay below the capital stock.)", "quantifier": "all parameters, all regions and their number, all optimal solutions, all alternative distributions of abatement (one year or all years), every pair of regions, every time step", "why_tests_cant": "it quantifies over every optimum and over every other way of distributing abatement; a run shows one optimum only up to solver tolerance and cannot show that no cheaper distribution exists", "anchors": [{"file": "mimosa/components/emissiontrade/emissiontrade.py", "symbols": ["get_constraints", "import_export_mitigation_cost_balance", "global_carbonprice"]}, {"file": "mimosa/components/mitigation.py", "symbols": ["MAC", "AC", "mitigation_costs", "area_under_MAC", "carbonprice", "rel_mitigation_costs_min_level"]}, {"file": "mimosa/components/objective/utility.py", "symbols": ["get_constraints"]}, {"file": "mimosa/components/objective/globalcosts.py", "symbols": ["get_constraints"]}, {"file": "mimosa/components/emissions.py", "symbols": ["get_constraints"]}]}
{"id": "C78", "title": "A simulated run without abatement is the baseline", "statement": "If simulation mode imposes zero relative abatement on all regions (as the script run_baseline.py does), the run is accepted, every path without abatement that the model allows is feasible in it, and in every feasible point abatement is between 0 and 0.1 %, each region's emissions are within 0.1 % of its baseline, carbon prices and abatement costs are at most those of abating 0.1 %, and with exogenous baselines the temperature is never above, and at most 0.1 % of the warming below, that of the path without abatement. The settings written in the configuration are the ones that are used.", "quantifier": "every data set, choice of modules, table of zeros covering the regions, and every feasible point of the simulated run", "why_tests_cant": "The repository's test runs one data set with a local solver; the claim is about every feasible point for every data set.", "anchors": [{"file": "run_baseline.py", "symbols": []}, {"file": "mimosa/concrete_model/simulation_mode/set_constraints.py", "symbols": ["set_constraints_fixed_variables", "_extra_regional_constraint"]}, {"file": "mimosa/concrete_model/simulation_mode/utils.py", "symbols": ["InterpolatingData"]}, {"file": "mimosa/components/emissions.py", "symbols": ["get_constraints"]}]}
{"id": "C79", "title": "A saved run can be repeated from its parameter file", "statement": "The parameter file that save() writes beside the results is a valid configuration: reading it and passing it to MIMOSA gives the same final parameters, the same modules and the same model data as the original configuration, provided references occur in free texts only, each text has at most one reference and that to a text without references, no optional number was given as a zero text, and dictionaries have texts as keys. Without the condition on references, or with integer keys, the repeated run can have other parameters (shown by examples).", "quantifier": "every user configuration that is accepted and meets the conditions, every data set, every history of solve and save calls before the file is read", "why_tests_cant": "Any configuration, any history of calls; a test saves and reloads one run.", "anchors": [{"file": "mimosa/export/save.py", "symbols": ["save_output"]}, {"file": "mimosa/common/config/parseconfig.py", "symbols": ["check_params", "parse_param_values"]}, {"file": "mimosa/common/config/utils/parsers.py", "symbols": ["Parser.parse"]}, {"file": "mimosa/mimosa.py", "symbols": ["MIMOSA.__init__", "MIMOSA.save"]}]}
{"id": "C80", "title": "The cost share of the calibration script is that of the run", "statement": "For a saved run whose time grid contains the year 2020, the calibration script's number is the trapezoid integral of discounted global mitigation costs from 2020 on divided by that of gross GDP (each variable's rows are summed over exactly the regions of the run); it fails without a column for 2020. For a solved run it equals the share of the unrounded solution up to 0.0011 % of the absolute costs, is not negative if relative costs may not be negative, lies (up to that rounding) between the smallest and largest yearly cost share the model reports, is zero without costs, and is not higher for a run with nowhere higher costs and nowhere lower GDP.", "quantifier": "every data set, choice of modules, time grid and solution; every discount rate", "why_tests_cant": "The script is run on one set of results; the claim is about every saved solution.", "anchors": [{"file": "run_calibration.py", "symbols": ["npv"]}, {"file": "mimosa/export/save.py", "symbols": ["save_output", "var_to_row"]}, {"file": "mimosa/components/mitigation.py", "symbols": ["get_constraints"]}]}
{"id": "C81", "title": "Every equation can be evaluated at the starting point, which respects all bounds", "statement": "With admissible data, both sides of every constraint and the objective have a value (no division by zero, no power outside its domain) at every point where abatement is not negative and gross GDP is not zero, regionally and in total; where gross GDP is zero, or abatement is negative and the MAC exponent is no integer, they do not. The point from which the solver starts (declared starting values, averaged over merged variables, else the middle of the bounds) lies within all bounds of the original model, and every constraint and the objective that the solver is sent can be evaluated there: a run does not fail before the first iteration.", "quantifier": "all module choices, all admissible parameters and data (any number of regions and time steps), all assignments to the variables", "why_tests_cant": "Whether an expression is defined depends on the data and on the values of all variables; the starting point is determined by which variables happen to be merged or fixed.", "anchors": [{"file": "mimosa/mimosa.py", "symbols": ["MIMOSA.preprocessing"]}, {"file": "mimosa/components/cobbdouglas.py", "symbols": ["get_constraints"]}, {"file": "mimosa/components/emissions.py", "symbols": ["get_constraints"]}, {"file": "mimosa/components/mitigation.py", "symbols": ["get_constraints", "MAC", "AC"]}]}
{"id": "C82", "title": "The numbers in the saved file obey the limits and the effort-sharing regime", "statement": "Rounding in the CSV file never reverses an order, and a number of at most six significant digits is printed unchanged. Hence, for every run that was solved: the row of cumulative emissions never exceeds a configured carbon budget from 2100 on, the row of the temperature never exceeds the target, emission rows stay above the minimum levels and relative abatement within 0 and 2.5 (limits of at most six digits). With equal mitigation costs the relative standard deviation over the regions of the printed cost shares is below 1 %; with equal total costs the same holds up to 2100 for the sum of the three printed shares (unless they nearly cancel: an explicit bound otherwise); with per-capita convergence the printed allowances per head from the convergence year on deviate by an explicit small bound, and allowances are baseline minus reductions paid for up to rounding.", "quantifier": "all module choices, parameters, regions (two or more for the standard deviations), time steps and solutions; all real numbers for the rounding", "why_tests_cant": "The model tests check these numbers after one optimisation with one set of data; whether rounding can push a value over a limit or the spread over 1 % has to be settled for every value.", "anchors": [{"file": "mimosa/export/save.py", "symbols": ["save_output", "var_to_row"]}, {"file": "mimosa/components/effortsharing.py", "symbols": ["get_constraints"]}, {"file": "mimosa/components/emissions.py", "symbols": ["get_constraints"]}, {"file": "tests/modeltests/test_effortsharing.py", "symbols": ["test_equal_mitigation_costs", "test_equal_total_costs", "test_per_cap_convergence"]}, {"file": "tests/modeltests/test_carbonbudgetrun.py", "symbols": ["test_cumulative_emissions_carbon_budget"]}]}
{"id": "C83", "title": "Without damages and abatement GDP stays near the baseline GDP", "statement": "The net product of a run without damages and mitigation costs is not exactly the baseline GDP of the input data (the productivity is calibrated with a capital stock fed by the previous step's GDP, the model's stock is fed by the present product, and the production function sees a soft minimum), but it stays near it: whenever the data let c times the baseline capital stock not grow further, capital never exceeds c times the baseline stock and gross GDP never exceeds (c(1+eps))^alpha times baseline GDP, and symmetrically from below. With the default depreciation, saving rate, elasticity and five-year steps and moderately growing baseline GDP, net GDP is within 7 % of the baseline GDP in every region at every time, in every such solution and in every optimum with nothing to gain from abating.", "quantifier": "all module choices, parameters, regions, time steps and solutions; the conditions are on the input data only (positive GDP, population and capital; growth between bounds for the 7 % case)", "why_tests_cant": "The model test checks the 7 % for one optimisation with one scenario; whether the error of the calibration accumulates over time must be settled for every length of the run and every scenario.", "anchors": [{"file": "mimosa/common/economics.py", "symbols": ["get_TFP_value", "calc_dKdt", "calc_GDP"]}, {"file": "mimosa/components/cobbdouglas.py", "symbols": ["get_constraints"]}, {"file": "tests/modeltests/test_baseline_nodamages.py", "symbols": ["test_gdp_equal_to_baseline_gdp"]}]}
{"id": "C84", "title": "Without damages feasible policies can be mixed, and the optimum is unique", "statement": "In a cost-effectiveness run (no damage module, no trade, transfers or effort sharing, exogenous baseline, targets and emission limits of any kind, learning by doing slow compared to the exponent of the cost curve as with the defaults) any two feasible policies can be mixed: for every weight there is a solution whose relative abatement, regional and global emissions, cumulative emissions and temperature are the weighted means, whose carbon prices and mitigation costs are at most the weighted means (costs strictly less where the two policies differ), and whose objective is at least the weighted mean of the two objectives, strictly more if the policies differ. Hence two optima abate the same in every region and time step with baseline emissions and have the same temperature, emissions, prices, costs and consumption, every other policy is strictly worse, and a solution that no solution with nearby abatement improves on (which is all a nonlinear solver can establish) is at least as good as every other.", "quantifier": "all parameters of the setting, all pairs of solutions, all weights strictly between 0 and 1, all welfare functions and both objectives; with the objective utility, solutions in which no region is very poor (capital at least one trillion dollar, consumption at least 100 dollars per head)", "why_tests_cant": "A test compares a few runs of the solver from one starting point; that no second optimum and no local optimum exists is a statement about all feasible policies.", "anchors": [{"file": "mimosa/components/mitigation.py", "symbols": ["get_constraints", "AC", "MAC"]}, {"file": "mimosa/components/objective/utility.py", "symbols": ["get_constraints"]}, {"file": "mimosa/components/objective/globalcosts.py", "symbols": ["get_constraints"]}, {"file": "mimosa/common/economics.py", "symbols": ["calc_GDP"]}, {"file": "mimosa/common/pyomo_utils.py", "symbols": ["soft_min"]}]}
{"id": "C85", "title": "Without damages each further tightening of a target costs at least as much as the one before", "statement": "In the cost-effectiveness setting of C84, consider two scenarios that differ in any of the limits: temperature target, carbon budget, global and regional inertia, global and regional minimum emission level, no increase after 2100, net zero after the budget year. For every weight, the scenario whose limits are the weighted means has a solution with the weighted mean of the two policies, at least as good as the weighted mean of the two objectives. Hence the best objective is a concave function of the limits, strictly concave where the optimal policies differ: for budgets b0 < b1 < b2 (or targets T0 < T1 < T2) the loss per unit of tightening from b1 to b0 is at least that from b2 to b1.", "quantifier": "all parameters of the setting, all pairs of limits and weights, all solutions and optima of the scenarios, all welfare functions and both objectives; with the objective utility, solutions in which no region is very poor", "why_tests_cant": "A series of runs with different budgets samples the curve; convexity is a statement about all budgets and all feasible policies.", "anchors": [{"file": "mimosa/components/emissions.py", "symbols": ["get_constraints"]}, {"file": "mimosa/components/mitigation.py", "symbols": ["get_constraints", "AC", "MAC"]}, {"file": "mimosa/components/objective/utility.py", "symbols": ["get_constraints"]}, {"file": "mimosa/components/objective/globalcosts.py", "symbols": ["get_constraints"]}]}
{"id": "C86", "title": "A setting the user leaves alone has its documented value in the model", "statement": "Whatever else the user sets, every model setting that the user does not mention (and for which no regional or custom value is given) has the value that the parameter reference documents: the capital share 0.3, depreciation 0.05, savings rate 0.21, PRTP 0.015, elasmu 1.001, learning rate 0.82, MAC exponent 3, the switches, the limits (no temperature target, regional inertia -0.05, no effort sharing, ...), the model years 2020, 2025, ..., 2150, the 26 IMAGE regions, and the quantities (MAC gamma, learning scale, initial temperature, TCRE, minimum levels, ...) as Pint converts them to the model's units. A start year, end year, step, region list or regime that the user does set is the one the model uses. In consequence, with the default economy every run on data with people, production and emissions meets the assumptions of the other properties, and a run with damages and carbon-intensity feedback switched off and any targets is a cost-effectiveness setting (C84), so that it has at most one optimal policy.", "quantifier": "all user configurations that leave the named setting alone, all earlier uses of the library, all input files and Pint behaviours; for the consequences: all data sets with positive population, GDP and emissions", "why_tests_cant": "The defaults pass through the merge with the user's tree, the parsers, unit conversion, the loaders and the instantiation; that nothing else in the user's configuration disturbs them is a statement about all configurations.", "anchors": [{"file": "mimosa/common/config/parseconfig.py", "symbols": ["load_params"]}, {"file": "mimosa/inputdata/config/config_default.yaml", "symbols": ["alpha", "dt", "carbonbudget"]}, {"file": "mimosa/concrete_model/instantiate_params.py", "symbols": ["InstantiatedModel"]}]}
{"id": "C87", "title": "The future depends on the past only through the present state (principle of optimality)", "statement": "If two runs of the same model have, in some year, the same emissions and capital stock in every region, the same cumulative emissions and the same three contributions to sea-level rise, then the values of the first up to that year followed by those of the second are again a solution, whose objective is the sum of the two parts. Hence the rest of an optimal run is the best way to go on from the state it is in, whoever else reached that state and however; its beginning is the best way to get there; and optimal runs through a common state can be recombined into optimal runs. Without trade and transfers and with an exogenous baseline the state is determined by the policy so far, so nobody gains by leaving an optimal policy later.", "quantifier": "all module choices that can be built, all parameters, all years, all pairs of solutions in the same state in that year, both objectives", "why_tests_cant": "Every constraint of every module has to look back at most one year and only at these quantities; tests check a run, not the recombination of arbitrary runs.", "anchors": [{"file": "mimosa/components/emissions.py", "symbols": ["get_constraints"]}, {"file": "mimosa/components/sealevelrise.py", "symbols": ["get_constraints"]}, {"file": "mimosa/components/cobbdouglas.py", "symbols": ["get_constraints"]}, {"file": "mimosa/components/objective/utility.py", "symbols": ["get_constraints"]}]}
{"id": "C88", "title": "A higher rate of time preference moves welfare to earlier years, never to later ones", "statement": "Take two runs of the same model that differ only in the pure rate of time preference, each solved to an optimum. If any year's welfare (or, with the objective \"globalcosts\", any year's world costs) differs, then in the run with the higher rate some earlier year is better and some later year is worse; it never happens that no year up to some date gains and no year after it loses. The differences are positively correlated with the discount weights. If every year's value is non-negative the optimal objective does not rise with the rate, and the discounted costs of a cost-minimising run without damages do not rise with it.", "quantifier": "all module choices that can be built, all parameters, all pairs of rates, all optima of the two models, all years", "why_tests_cant": "It compares the optima of two optimisation problems over all parameters; a test compares the solver's answer for one pair of rates and one data set.", "anchors": [{"file": "mimosa/components/objective/utility.py", "symbols": ["get_constraints"]}, {"file": "mimosa/components/objective/globalcosts.py", "symbols": ["get_constraints"]}]}
{"id": "C89", "title": "Ambition can be combined, and one policy is the most ambitious of all and decides which targets can be met", "statement": "In a run without transfers and effort sharing, with exogenous baseline emissions, and with either no damages or regional damages that rise with temperature and sea level, two feasible pathways can be combined: if world emissions stay within the limits for the world as a whole (cumulative emissions, minimum level and inertia of world emissions), taking the larger abatement in every region and year is again feasible, with the smaller emissions everywhere and no carbon price above the larger of the two. If the regional limits already guarantee the limits for the world, there is one feasible pathway whose abatement is the largest of all in every region and every year at the same time; its emissions, cumulative emissions, temperature, sea level and damages in every region are the lowest. That pathway decides feasibility: a temperature target, carbon budget and net-zero requirement can be met, alone or together, exactly if it meets them. So targets that can be met one by one can be met together, and there is a lowest attainable temperature target, above which every target is attainable. A target only excludes pathways: the pathways with it are exactly those without it that meet it.", "quantifier": "all parameters and data in the stated setting, all horizons, regions and time steps, all pairs of feasible pathways, all combinations of targets", "why_tests_cant": "It speaks about all feasible pathways of a continuous problem and about all targets; a test sees one pathway chosen by the solver, and a solver that reports infeasible proves nothing.", "anchors": [{"file": "mimosa/components/emissions.py", "symbols": ["get_constraints"]}, {"file": "mimosa/components/mitigation.py", "symbols": ["get_constraints", "MAC"]}, {"file": "mimosa/abstract_model.py", "symbols": ["create_abstract_model"]}]}
{"id": "C90", "title": "The stand-alone damage calculation (social cost of carbon) agrees with the model", "statement": "The damage calculation of the SCC class and the constraints of the optimisation model give the same numbers for the same emissions. If the emissions of any solution of the model with COACCH damages and trapezoidal accumulation are passed to it, it runs through and returns that solution's world emissions and temperature for every year and its damages from temperature, from sea-level rise and in total for every region and year; the absolute damages are these fractions of the baseline GDP. Without given emissions it returns the damages of every solution without abatement. It raises NotImplementedError exactly if a functional form of some region is unknown. With the trapezoid rule switched off in the model it differs, by the warming due to half a time step of the emissions saved since the first year.", "quantifier": "all parameters and data with a positive time step, all horizons and sets of regions, all solutions of the model and all emission pathways", "why_tests_cant": "It equates two implementations (a loop over data frames, a system of equations) for all inputs; a test compares them for one pathway.", "anchors": [{"file": "mimosa/socialcostofcarbon/scc.py", "symbols": ["SCC", "calculate_damages"]}, {"file": "mimosa/components/sealevelrise.py", "symbols": ["slr_thermal_expansion", "slr_gsic", "slr_gis"]}, {"file": "mimosa/components/damages/coacch.py", "symbols": ["damage_fct", "functional_form"]}, {"file": "mimosa/components/emissions.py", "symbols": ["get_constraints"]}]}
{"id": "C91", "title": "What the effort-sharing regimes mean for the regions", "statement": "With equal mitigation costs, the part of the world's mitigation costs that a region bears equals its part of the world's gross GDP within 1 percent (factor 1.005/0.995), in every year; so in every year either no region has mitigation costs or all regions have positive ones, and without emission trade no region abates unless all regions have positive baseline emissions and abate. With equal total costs, up to 2100, any two regions lose the same part of their gross GDP (gross minus net, over gross) within that factor, and no region ends with a net GDP above its gross GDP: a region that gains from warming must spend the gain on mitigation or transfers, and if mitigation costs cannot be negative every region loses at least 0.99 times what damages and transfers cost any other region. With per-capita convergence, from the convergence year on, every region buys (within 0.001) exactly its emissions above its population share of the world's emissions: a region that emits more pays, one that emits less is paid.", "quantifier": "all parameters and data with well-defined economics, all module choices, all solutions, all years, all regions and pairs of regions", "why_tests_cant": "The regimes are soft equalities with a free common level inside a nonlinear program; a test sees the numbers of one optimum, not that every feasible point distributes the burden this way.", "anchors": [{"file": "mimosa/components/effortsharing.py", "symbols": ["_get_equal_mitigation_costs_constraints", "_get_equal_total_costs_constraints", "_get_percapconv_constraints", "percapconv_share_rule"]}, {"file": "mimosa/components/emissiontrade/emissiontrade.py", "symbols": ["get_constraints"]}, {"file": "mimosa/components/cobbdouglas.py", "symbols": ["get_constraints"]}]}
{"id": "C92", "title": "The limits on reductions bound what can be reached, and targets below the bound have no solution", "statement": "With exogenous, non-negative baseline emissions, the minimum emission levels, the inertia limits (regional and global) and the limit of 2.5 on relative abatement give, from the data alone, a lower bound on regional and world emissions in every year, and by the chosen integration rule (never below zero) on cumulative emissions and temperature; every feasible pathway respects these bounds. A carbon budget or temperature target below the bound for a model year from 2100 on has no feasible pathway, whatever the modules and other settings. World emissions cannot reach zero in fewer than 1/|inertia| years, and if zero emissions are required from 2100 on and the time until then is shorter, there is no feasible pathway. The bound can be exact (a concrete world is given in which a budget is attainable if and only if it is at least the bound).", "quantifier": "all parameters and data with exogenous non-negative baseline, all module choices, all solutions, all years and targets", "why_tests_cant": "That no pathway exists cannot be observed by running a solver: an infeasible report may be a numerical failure; the bound must hold for all pathways, horizons and time steps.", "anchors": [{"file": "mimosa/components/emissions.py", "symbols": ["get_constraints"]}, {"file": "mimosa/components/mitigation.py", "symbols": ["get_constraints"]}, {"file": "mimosa/abstract_model.py", "symbols": ["create_abstract_model"]}]}
{"id": "C93", "title": "What other regions abate never harms a region", "statement": "With exogenous, non-negative baseline emissions, no financial transfers or effort sharing, entirely reversible damages, and ordinary data (learning never makes abatement dearer, damages rise with temperature and sea level), take two feasible pathways in which one region abates the same while every other region abates at least as much in the second. Then in the second, in every year, that region emits the same, its carbon price and the cost of its own reductions are not higher (learning by doing is shared through world emissions), and its damages as a share of the product are not higher (no damages or COACCH). Without emission trade, and if its damages lie between nothing and the whole product and one step's savings for abatement costs do not use up its capital, its abatement costs are not higher and its capital stock, gross product, net product and consumption are not lower.", "quantifier": "every admissible parameter set in the stated setting, every pair of feasible pathways so ordered, every region that keeps its policy and every year", "why_tests_cant": "It compares all pairs of feasible pathways of the same problem; the effects run through learning, temperature, sea level and capital accumulation over all years.", "anchors": [{"file": "mimosa/components/mitigation.py", "symbols": ["get_constraints"]}, {"file": "mimosa/components/cobbdouglas.py", "symbols": ["get_constraints"]}, {"file": "mimosa/components/damages/coacch.py", "symbols": ["get_constraints"]}]}
