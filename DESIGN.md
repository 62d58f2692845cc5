# Formal model of MIMOSA – design

Code base: `/repo` (Ditesli/MIMOSA, Python). Model: `/verif/lean` (Lean 4.33.0 + Mathlib, one module at a time).
Properties: `properties.jsonl` (C01…C93). Status per property: `MANIFEST.json`. Mutation log: `seeded/LOG.jsonl`
(the edits are in `seeded/mutations*.py`, applied by `tools/mutate.py` to a scratch copy).

## 1. How the code is modelled

MIMOSA has two halves and both are modelled function by function; every definition cites file and lines.

**(A) Configuration / data half (executable model, errors as values).**
Python values are `Val` (atoms, lists, dictionaries = association lists in insertion order); exceptions are
`Except Err`, one constructor per Python exception class that can escape.

| code | model |
|------|-------|
| `common/config/utils/nested_dict.py` | `Config/NestedDict` |
| `common/config/utils/parsers.py` (all parser classes, `PARSER_FACTORY`) | `Config/Parsers` |
| `common/config/parseconfig.py` (`check_params`, `parse_params`, `check_obsolete_params`, `parse_param_values`) | `Config/ParseConfig`, `Config/Refs` |
| `inputdata/config/config_default.yaml`, `default_units.yaml` | `Config/DefaultYaml` (generated by `tools/gen_default.py`, committed), `Config/Units` |
| `common/units.py`, `get_unit` | `Config/Units`, `Export/Save` |
| `common/data/utils.py`, `common/data/datastore.py` | `Data/Extrapolate`, `Data/DataStore` (class-level caches are an explicit state) |
| `common/regional_params/*` | `Data/Regional` |
| `concrete_model/instantiate_params.py` | `Data/TimeGrid`, `Data/Instantiate`, `Data/Run` |
| `concrete_model/simulation_mode/*` | `Sim/Simulation` |
| `mimosa.py`, `export/save.py` | `Session` (histories of constructions, solves and saves; log lines; parameter files), `Export/Save`, `Export/Json` (the parameter file as the value its text denotes) |
| `run_calibration.py` lines 28-42 | `Export/Calibration` |

**(B) Optimisation half (deep embedding).**
Pyomo expressions are an inductive type `Expr`; each component's `get_constraints` is a Lean function returning a list of
constraint objects (`GlobalConstraint`, `GlobalInitConstraint`, `RegionalConstraint`, `RegionalInitConstraint`,
`RegionalSoftEqualityConstraint`) whose rules map an instance (parameters), `t` and `r` to an optional relation
(`none` = `Constraint.Skip`). `Core/*` is `common/pyomo_utils.py` and `common/economics.py`, `Components/*` the ten
component packages, `AbstractModel` is `abstract_model.py` (module choice, declared parameters, variables, constraint
names, instance creation). `Solution md p σ` says: the model for modules `md` builds and instantiates with parameters `p`,
the variable bounds hold at `σ` and every generated relation holds under the standard real semantics, where a relation
with an undefined subexpression (division by zero, power outside its domain) does **not** hold. `Optimal` adds that no
solution has a better objective value. Properties of "every solution the solver may return" are theorems about every
`Solution`. Python duck typing (functions used on floats and on Pyomo expressions) is mirrored by a type class `Num` with
instances for `ℝ` and `Expr`. `Eqs` proves, component by component, that satisfying the generated constraints is
*equivalent* to a list of plain equations; `Lib/Char` assembles them (`solution_char`).

**The joint.** `Data/Run` reads an instance (`Params`) off the data dictionary that half A produces, so statements such
as "the user's carbon budget binds in every solution" (C50, C55–C57) run from the YAML text's value to the solution.

## 2. Property by property: what is modelled, how it is proved

| id | modelled | proof |
|----|----------|-------|
| C01 | `checkObsolete`, `flatten` over arbitrary trees | soundness for keys without " - " ambiguity (**partial**); witness that a top-level key `"emissions - carbonbudget"` is accepted and ignored |
| C02 | `parseParams` as fold over template leaves | look-up law of set/get nested + induction on leaves |
| C03 | all parsers | per-parser idempotence by induction on the parser (**partial**); witness `"0.0"` with can_be_false (0.0, then False) |
| C04, C05, C06 | parsers | case analysis over parser and value; NaN witness (C04 **partial**) |
| C07 | get/set/flatten | induction on path |
| C08 | `parseParamValues` | induction over leaves (**partial**); witnesses: two references in one string, non-string reference |
| C09 | `parseParams` | congruence in look-ups |
| C10 | textual replace on `List Char` | lemma about sequential replacement |
| C11 | `extrapolate` over ℝ | induction on extra years |
| C12, C13 | time grid, `np.arange`, `np.interp` | floor/ceil arithmetic |
| C14, C15 | cache state machine | invariant by induction over operations; refinement to uncached look-up |
| C16, C17, C18 | region mapper, store, doc dispatch | refinement to a direct specification |
| C19, C20, C21 | component lists, names, scoping | computation for all module choices, scope checker proved sound, case analysis on rules (C19, C20 **partial**, with failing configurations proved to fail) |
| C22 | soft functions | real analysis (arctan bounds, sign of derivatives) |
| C23–C45, C52–C54, C64 | constraint semantics | equations from `Solution`; induction over time, sums over regions, convexity (C54 also with the carbon-intensity baseline: two solutions with the same abatement are compared step by step through the monotone capital equation; C43 **partial**: `percapconv_year = False`) |
| C46, C58 | simulation mode: reading data, extra constraints, deactivation | set of active relations; rounding error of six significant digits against the tolerance |
| C47, C51 | export table, `get_unit` | list lemmas, induction on characters |
| C48, C63 | `MIMOSA` objects (status, last file name, result and parameter files, log lines) and the class-level caches as a state machine | induction over histories |
| C49 | explicit feasible assignment (`Lib/Build`) | construction and verification of each constraint; with the carbon-intensity baseline emissions and GDP of a period determine each other: fixed point by the intermediate value theorem (`Lib/CarbonIntensity`) |
| C50, C55–C57 | composition of A and B | chaining theorems through `check_params`, unit conversion, data store, instance |
| C59–C62 | two models related by changed settings | transport of every constraint from one model to the other |
| C65 | set of solutions as a subset of a product space | closed (`Lib/Closed`), bounded after zeroing the coordinates that no constraint mentions (`Lib/Clip`, `Lib/Bounded`, `Lib/BoundedCI`), Tychonoff, extreme value theorem |
| C66 | capital accumulation of two solutions compared | monotone dependence of the implicit capital equation on costs; strict monotonicity of welfare |
| C67 | `mimosaParams`, `readModules` (mimosa.py:70-74) and the enum parsers of the default YAML | the checked configuration holds the user's value or the default at each path (C02/C08); names to modules by cases |
| C68 | two solutions of the whole model, second one with other MAC/learning/damage-scale parameters | same abatement gives same emissions and climate; costs and damages compared pointwise; capital by induction over the implicit equation; existence through the explicit construction of C54 (`Drivers.build_solution`); with emission trade (`MilderTrade`) payments are built as in C77 so that nobody pays more |
| C69 | doc strings of the regional parameters, `instantiate`, `paramsOf` | the three choices in the checked configuration (C02/C05/C08), doc strings by cases, C18; the equations of a solution written out with the numbers of the regional file (`RegionalEquations`); combined damages through C18_combined and C40 |
| C70 | the damage modules, the GDP, effort-sharing, transfer and objective equations | all equations outside the damage module transported to values that differ only in damages; optimum by exchange of solutions |
| C71 | the welfare and objective modules against all other components | equations of all other components do not mention utility, welfare and NPV; the welfare values of the other choice are constructed explicitly from consumption and population; optimum by exchange of solutions |
| C72 | two solutions of the whole model, second one with smaller TCRE (and milder costs and damages) | sea-level recursions compared by induction over the steps; damage functions by monotonicity; economy and existence as in C68 (`Milder.ok_world`), with emission trade in `MilderTrade` |
| C73 | `mimosa.py` `preprocessing`/`postprocessing` with Pyomo's `aggregate_vars` (including its own detection of fixed variables) and `detect_fixed_vars` as functions on the set of constraints (`Presolve.lean`) | substitution lemma for expressions; linear forms decide which constraints are links or fix a variable; every point that meets the equations has the fixed values; invariant of the group representatives; feasible sets and objective transported both ways |
| C74 | two instances that share one region and the global settings, all else different; their solutions | induction over time for sea level and capital; same parameters of region r give the same calibrated productivity; the implicit capital equation has one root; with the carbon-intensity baseline (`_carbon_intensity`) baseline and costs are proportional to net GDP, so net GDP is a fixed fraction of gross GDP and the capital equation again has one root |
| C75 | solutions and optima of models whose damages do not count; the same policy scaled by `l ≤ 1` | the scaled policy is built as a solution (emissions, temperature and cumulative emissions are mixtures; the learning factor grows by less than `l^-beta`); induction over time for capital (smaller costs, larger root); with emission trade the lower total is shared so that nobody pays more (`Shift.pays`, as for C77); a strict target leaves room for `l` slightly below 1, which would be strictly better |
| C76 | two parameter sets with the same regional data under other names; two candidate solutions with correspondingly relabelled values | every equation of the renamed model is rewritten into one of the original (sums over the region list by permutation, calibration of productivity by induction over time); the converse with the inverse renaming; identical regions by the renaming that exchanges them, with C54 |
| C77 | an optimum, and any other distribution of abatement with the same world emissions | the other distribution is turned into a solution: climate, learning and damages are unchanged, and trade shares the lower total so that no region pays more (capital then rises step by step, the cost floor still holds); that would be better than the optimum. Prices: shifting a little abatement from a dear to a cheap region saves money, by the derivative of the cost curve (C30) |
| C78 | simulation mode with a table of zeros for the relative abatement (run_baseline.py) | the extension of zeros is zero, the spline oracle keeps zero (assumed of scipy: `Spec.KeepsZero`), so the two imposed inequalities bound abatement by 0.1 %; emissions, prices and costs from their equations, temperature by induction over the steps; settings traced from the configuration (C46_on) through a lemma that sections without references are unchanged (C08_section_unchanged) |
| C79 | `json.dump` of the parameters and reading the file again (`Export/Json.lean`), the whole `MIMOSA(...)` pipeline on the result | the final parameters have the same skeleton (keys) as the checked ones; each parser leaves its own output unchanged, also after texts were replaced in free-text parameters; so a second check reproduces them, and no references are left; counterexamples for two references in one text and for integer keys |
| C80 | `npv` and the loop of run_calibration.py on the model of the saved file (`Export/Calibration.lean`) | the rows of a variable are a permutation of the regions (C47), the trapezoid sum over the grid in closed form, rounding by C47, positivity of GDP by C37, the cost floor by C33 |
| C81 | the `initialize=` arguments, the averaging of `aggregate_vars`, `init_vars_midpoint` (`Start.lean`) | definedness of each rule by cases; each declared starting value lies within its declaration's bounds, averages and midpoints stay within bounds; gross GDP is never merged (no equation links it) and keeps its positive starting value or the positive value that an equation determines |
| C82 | the printed numbers (`Export/Save.lean`), looked up by name, region and column; the sample standard deviation of pandas | `print6g` is monotone and the identity on six-digit numbers; limits from C25, C26, C28, C50; deviation from the common level by C42/C43 plus the rounding error of C47, then the variance about the mean is at most that about the level |
| C83 | capital and product of a solution against the capital recursion of the calibration (written again in the statement) | induction over time: were the ratio of the stocks above `c`, concavity (`alpha ≤ 1`) would turn the step condition into a contradiction; `soft_min x ≤ x + 0.0068/x²` from an `arctan` bound; the 7 % case by arithmetic on tenth powers; the optimum by C66 |
| C84 | two arbitrary solutions and the solution built from the mixture of their abatement; the convexity facts (`Lib/Convexity`) are about real functions only | the mixture is built with `Drivers.build_solution`, all emission limits being linear; prices and costs by convexity of `s(x)^(-k) a^q` (perspective of a power, with `s` the soft minimum, whose power is concave above 1/10); capital by induction and concavity of the production function, welfare by concavity of all three welfare functions; uniqueness and local = global follow |
| C85 | two parameter sets that differ in the eight limits, and the one between them | both solutions are solutions without limits (C59); their mixture (C84) respects the mixed limits, all of which are linear in emissions, and so solves the limited model (`Between.limited`, a converse of C59); three-point inequality by arithmetic |
| C86 | the whole pipeline of C56–C58 on an arbitrary user tree that leaves the setting alone | `Effective` with the default of `DefaultYaml` (evaluated by the kernel), then the per-parser theorems of C56; years by C13's grid; the consequences by checking `Admissible` and `ConvexSetting` on the default numbers. Pint is a parameter: what it returns for the default strings is a hypothesis (`Spec.PintReads`) |
| C87 | two solutions of one model in the same state in year k | the recombined values (`Splice.env`) satisfy every equation of every module: equations of one year are those of one of the runs; equations between years only look back at the state; sea-level damages also look at the first year, which is the same in all runs. The objective splits (C45), the rest is arithmetic. Same policy, same state: C61 and C54 |
| C88 | two optima of models that differ in PRTP only | PRTP does not restrict pathways (C71), so each optimum can be judged by the other's weights; the ratio of the two weights falls strictly with time, hence a change that loses early and gains late would make one of the two not optimal (exchange argument over the sum of C87) |
| C89 | two solutions, all solutions, all targets | the path with the larger abatement is built explicitly (`Joint`): emissions are the smaller of the two, so cumulative emissions are smaller, learning (antitone in cumulative emissions) is at least as strong, and no price bound is broken; regional inertia and minimum levels survive the minimum, the limits on the world are a hypothesis (`WorldAllows`) with a sufficient condition on the data (`RegionalFloor`); the most ambitious solution maximises total abatement over the compact set of solutions (as in C65); targets only exclude (`C59_other_limits`, `C89_meets_iff`). with COACCH damages the combined path has the lower temperature, sea level and damages (`MilderClimate.sea`, `.parts`), so output stays positive (`C89_less_damage`). Not covered: the carbon-intensity baseline (then output changes baseline emissions) |
| C90 | `socialcostofcarbon/scc.py` `calculate_damages` as a function of the data (`Scc.lean`): tables row by row, label slices as filters, `np.trapz`, the loop for sea-level rise, `damage_fct` with its exception | induction over the years against the equations of a solution; the constructor (always raises) and the reading of a file of emissions are not modelled |
| C91 | a solution, all years, regions and pairs of regions | cross-multiplied tolerance of C42 summed over the regions (`C91_costs_follow_gdp`); positivity of one region's costs forces that of all (`C91_all_or_none`, `C91_all_abate`); total relative costs are the lost part of gross GDP (C36, C35: `C91_equal_loss`, `C91_no_gain`); allowances of C43 and balances of C34 (`C91_excess_is_bought`) |
| C92 | a solution and all years; absence of solutions | `Spec.regionalFloor`, `Spec.worldFloor`, `Spec.cumulativeFloor` are computed from the data alone; induction over the years along the inertia constraints and the recursion of cumulative emissions (`C92_emissions`, `C92_cumulative`); a target below the bound contradicts C25/C26/C29 (`C92_budget_out_of_reach`, `C92_target_out_of_reach`, `C92_earliest_zero`, `C92_net_zero_out_of_reach`). Not covered: the carbon-intensity baseline; that the bound is attained in general (price limits can prevent it; C89 gives the exact criterion) |
| C93 | all pairs of feasible pathways in which one region keeps its policy | more abatement elsewhere lowers cumulative emissions and temperature (C89), hence the shared learning factor, prices and costs at the same abatement (`C93_cheaper_abatement`); the implicit capital equation is monotone in costs and damages, induction over the years (`C93_never_harmed`). Not covered: the carbon-intensity baseline, transfers and effort sharing, irreversible damages; `C93_never_harmed` also needs no emission trade |

For the seven partial properties the full claim is *false of the code*; the theorem files hold the proved part
(suffix `_partial` or restricted hypothesis) next to a theorem that exhibits the failure. Notes are in `MANIFEST.json`.

## 3. What is not modelled

* Floating point: numbers are rationals (data, configuration) or reals (optimisation); `nan`, `inf` exist as
  configuration values only.
* Ipopt / NEOS: the solver is an oracle that returns a status and an assignment. Of the Pyomo transformations in
  `mimosa.py:preprocessing`, aggregation and detection of fixed variables are modelled (`Presolve.lean`, from their
  documented effect, exact arithmetic), and so are the starting values (`Start.lean`). No claim says that the solver finds an optimum; claims say what any solution/optimum satisfies.
* Pyomo's own behaviour beyond evaluation of expressions and the naming/duplicate rules used here; mutability of
  `Param`s, Pyomo's unit checking (`assert_units_consistent` is not called by the code).
* Oracles (structures that theorems quantify over, so nothing is assumed except what is listed): `Builtins` (`str()` of
  floats/containers, `float(str)`, `int(str)`, `quant` in parsers; assumed: `str` of a non-string is none of the words
  "False", "false", "no"), `Pint` (conversion), `DataWorld` (files, scipy's cubic `interp1d`), `SimWorld` (files,
  `DataFrame(dict)`, `InterpolatedUnivariateSpline`), alphanumeric-character predicate of `\w`, file system of `save`.
* pandas: `read_csv` gives the table (numeric column = no text cell); an outer merge sorts rows by key, stable.
* `custom_mapping` of the regional parameters is dispatched as in the code, but its Pyomo-format values are not
  interpreted by `Data/Run`.
* Object identity: values are immutable (`str_or_plain_dict` returns the user's own dictionary object; later mutation
  of it by the user is not modelled).
* `export/utils.py`, `common/utils.py` (timers, Ipopt log plots), logging, `docs/`, dashboard; of `socialcostofcarbon/scc.py`
  the constructor (it calls `RegionalParamStore(params)` with a missing argument, so it always raises `TypeError`).

## 4. Simplifications

Stated in the comment of each definition. The main ones: dictionaries are association lists with Python's insertion
order; exceptions are classes without messages; strings in `units.py` and `get_unit` are `List Char`; regular expressions
are written as the recursive function they denote; the year index `t` is `ℕ` in rules (`t - 1` is `ℤ`, so that index −1
is visible as a `KeyError`).

## 5. Findings (behaviour that a user would not expect, each a theorem)

`globalcostpool` never builds (duplicate constraint name); `m.overshoot` undeclared when `perc_reversible_damages < 1`
with a budget; `per_cap_convergence` needs emission trade; index −1 when the run starts after 2100 with the
non-increasing switch; `percapconv_year: false` is not grandfathering; 0 for a budget/inertia means *off*; `nan` passes
bounds; keys with " - " and empty sections pass unnoticed; two references in one string; soft equality forces the common
level to be ≥ 0 and bounds the left side relative to the right; utility is not concave near zero for elasmu < 8/π²;
`elasmu = 1` and `inequal_aversion = 1` divide by zero; `time.end` up to 2300 is accepted but data end at 2250;
`end < start` is accepted; the saved six digits can lose more than the simulation tolerance; `save()` does not check the
status; trade variables and global ratios are unconstrained at t = 0; `ignore damages` leaves damages in the globalcosts
objective, the equal-total-costs regime and the transfer limits (hence the hypotheses of C70); with more than one region the bounds of a
variable that an equation determines are not passed to the solver (`C73_bounds_of_fixed_variables_lost`; harmless unless
equations contradict bounds).

## 6. Trusted base

Lean's kernel; the axioms `propext`, `Classical.choice`, `Quot.sound` (no theorem depends on any other; no compiled code
is trusted); the faithfulness of the cited definitions to the Python sources, in particular the real-number semantics of
`Solution`; the generator `tools/gen_default.py` for the default configuration (its output can be read next to the YAML
file).
