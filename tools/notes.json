{
 "C01": {
  "status": "partial",
  "note": "Proved for paths whose keys contain no dash (the default configuration's keys contain none). With a dash the claim is false of the code: names are compared after joining with ' - ', so a top-level key 'emissions - carbonbudget' is accepted and ignored (C01_dash_key_accepted); an unknown empty section is accepted too (C01_empty_section_accepted). What holds for all keys: C01_only_known_names."
 },
 "C03": {
  "status": "partial",
  "note": "Proved unless a numeric can_be_false parameter is parsed to the number 0 from something not written as false (such as '0.0'); then the claim is false of the code (C03_zero_becomes_false, C03_zero_becomes_false_default)."
 },
 "C04": {
  "status": "partial",
  "note": "Proved for int parameters and for every float that is a number. nan passes all bounds checks (C04_nan_accepted)."
 },
 "C08": {
  "status": "partial",
  "note": "Proved in full for strings with one reference, strings without resolvable references, non-strings, and the set of paths. With several references the code substitutes only one of them (C08_only_last_reference, C08_one_reference_substituted), and a reference to a parameter that is not a string raises TypeError (C08_number_reference_typeError)."
 },
 "C49": {
  "status": "proved",
  "note": "Both kinds of baseline. With exogenous baseline emissions the conditions are on the baseline path itself. With the carbon-intensity baseline emissions and GDP of a period determine each other; the fixed point is found by the intermediate value theorem, and the limits are asked of the economy without damages and costs, which bounds emissions from above (it always exists: favourable_exists). Effort-sharing regimes: none, or equal mitigation costs; the other two regimes can make the no-abatement path infeasible."
 },
 "C19": {
  "status": "partial",
  "note": "Every accepted combination builds with distinct names except emissiontrade module 'globalcostpool', which the configuration accepts and which always fails on a duplicate constraint name (C19_globalcostpool_fails)."
 },
 "C20": {
  "status": "partial",
  "note": "Proved outside three configurations, each proved to fail: perc_reversible_damages < 1 with a carbon budget and a year from 2100 on (undeclared overshoot variable), per_cap_convergence without emission trade (undeclared allowances), and the non-increasing switch with a run whose year before the start is after 2100 (index -1)."
 },
 "C43": {
  "status": "partial",
  "note": "Shares, interpolation, convergence and allowances are proved for every numeric convergence year. For percapconv_year = False the code does not stay at grandfathering (C43_false_is_not_grandfathering): a parameter object is compared with 'is False', which never holds; what happens instead is C43_false_partial."
 }
}