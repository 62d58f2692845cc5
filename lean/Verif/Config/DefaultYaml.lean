import Verif.Config.Py

/-! # `mimosa/inputdata/config/config_default.yaml` as loaded by PyYAML
Generated by tools/gen_default.py; one definition per top-level section. -/

namespace Mimosa.DefaultYaml

/-- config_default.yaml:1 `time` -/
def time : Val :=
  .dict [
    (.str "start", .dict [
      (.str "descr", .atom (.str "Year in which the model starts")),
      (.str "type", .atom (.str "int")),
      (.str "min", .atom (.int 1900)),
      (.str "max", .atom (.int 2100)),
      (.str "default", .atom (.int 2020))]),
    (.str "end", .dict [
      (.str "descr", .atom (.str "Last year of the model run")),
      (.str "type", .atom (.str "int")),
      (.str "min", .atom (.int 1901)),
      (.str "max", .atom (.int 2300)),
      (.str "default", .atom (.int 2150))]),
    (.str "dt", .dict [
      (.str "descr", .atom (.str "Timestep in years")),
      (.str "type", .atom (.str "float")),
      (.str "min", .atom (.float (.fin (mkRat (1) 2)))),
      (.str "max", .atom (.int 20)),
      (.str "default", .atom (.int 5))])]

/-- config_default.yaml:25 `SSP` -/
def SSP : Val :=
  .dict [
    (.str "descr", .atom (.str "SSP, used for population, baseline GDP and baseline emissions")),
    (.str "type", .atom (.str "enum")),
    (.str "values", .list [
      .atom (.str "SSP1"),
      .atom (.str "SSP2"),
      .atom (.str "SSP3"),
      .atom (.str "SSP4"),
      .atom (.str "SSP5")]),
    (.str "default", .atom (.str "SSP2"))]

/-- config_default.yaml:38 `economics` -/
def economics : Val :=
  .dict [
    (.str "PRTP", .dict [
      (.str "descr", .atom (.str "Pure rate of time preference")),
      (.str "type", .atom (.str "float")),
      (.str "min", .atom (.int 0)),
      (.str "max", .atom (.float (.fin (mkRat (1) 5)))),
      (.str "default", .atom (.float (.fin (mkRat (3) 200))))]),
    (.str "elasmu", .dict [
      (.str "descr", .atom (.str "Elasticity of marginal utility")),
      (.str "type", .atom (.str "float")),
      (.str "min", .atom (.float (.fin (mkRat (1) 10)))),
      (.str "max", .atom (.int 10)),
      (.str "default", .atom (.float (.fin (mkRat (1001) 1000))))]),
    (.str "inequal_aversion", .dict [
      (.str "descr", .atom (.str "Parameter of inequality aversion. Should be between 0 and `elasmu`. Only used when welfare_module='inequal_aversion_general'")),
      (.str "type", .atom (.str "float")),
      (.str "min", .atom (.float (.fin (mkRat (0) 1)))),
      (.str "max", .atom (.int 3)),
      (.str "default", .atom (.float (.fin (mkRat (1) 2))))]),
    (.str "GDP", .dict [
      (.str "alpha", .dict [
        (.str "descr", .atom (.str "Output elasticity of capital")),
        (.str "type", .atom (.str "float")),
        (.str "min", .atom (.int 0)),
        (.str "max", .atom (.int 1)),
        (.str "default", .atom (.float (.fin (mkRat (3) 10))))]),
      (.str "depreciation of capital", .dict [
        (.str "descr", .atom (.str "Yearly depreciation rate of capital stock")),
        (.str "type", .atom (.str "float")),
        (.str "min", .atom (.int 0)),
        (.str "default", .atom (.float (.fin (mkRat (1) 20))))]),
      (.str "savings rate", .dict [
        (.str "descr", .atom (.str "Fraction of GDP used for investments")),
        (.str "type", .atom (.str "float")),
        (.str "min", .atom (.int 0)),
        (.str "max", .atom (.int 1)),
        (.str "default", .atom (.float (.fin (mkRat (21) 100))))])]),
    (.str "MAC", .dict [
      (.str "beta", .dict [
        (.str "descr", .atom (.str "Power factor of the MAC curve")),
        (.str "type", .atom (.str "float")),
        (.str "min", .atom (.float (.fin (mkRat (1) 100)))),
        (.str "max", .atom (.int 10)),
        (.str "default", .atom (.int 3))]),
      (.str "gamma", .dict [
        (.str "descr", .atom (.str "Calibration level of the MAC (carbon price for 100% reduction)")),
        (.str "type", .atom (.str "quantity")),
        (.str "unit", .atom (.str "currency_unit/emissionsrate_unit")),
        (.str "default", .atom (.str "2601 USD2005/tCO2"))]),
      (.str "LBD_rate", .dict [
        (.str "descr", .atom (.str "Learning by doing rate: reduction in marginal mitigation costs for doubling cumulative mitigation capacity. Empirical studies show values between 0.65 (high learning) and 0.95 (low learning)")),
        (.str "type", .atom (.str "float")),
        (.str "min", .atom (.float (.fin (mkRat (1) 10)))),
        (.str "max", .atom (.int 1)),
        (.str "default", .atom (.float (.fin (mkRat (41) 50))))]),
      (.str "LBD_scaling", .dict [
        (.str "descr", .atom (.str "Scaling factor for learning by doing to transform the units of cumulative mitigation in relative terms (compared to baseline emissions in t=0). Only used for calibration, and should not be used to change the amount of LBD (for this, use the economics > MAC > rho parameter)")),
        (.str "type", .atom (.str "quantity")),
        (.str "unit", .atom (.str "emissions_unit")),
        (.str "default", .atom (.str "40 GtCO2"))]),
      (.str "LOT_rate", .dict [
        (.str "descr", .atom (.str "Learning rate of exogenous learning (learning over time). By default, there is no exogenous learning assumed, as all the technological learning happens endogenously (learning by doing).")),
        (.str "type", .atom (.str "float")),
        (.str "min", .atom (.int 0)),
        (.str "default", .atom (.int 0))]),
      (.str "regional calibration factor", .dict [
        (.str "descr", .atom (.str "Column from mac.csv to be used for the regional MACs. The MACs are calibrated from TIMER SSP2-RCP2.6 MACs at a given year and a given carbon price / abatement level.")),
        (.str "type", .atom (.str "enum")),
        (.str "values", .list [
          .atom (.str "kappa_carbonprice_200_2030"),
          .atom (.str "kappa_carbonprice_200_2050"),
          .atom (.str "kappa_carbonprice_200_2070"),
          .atom (.str "kappa_carbonprice_200_2100"),
          .atom (.str "kappa_carbonprice_300_2030"),
          .atom (.str "kappa_carbonprice_300_2050"),
          .atom (.str "kappa_carbonprice_300_2070"),
          .atom (.str "kappa_carbonprice_300_2100"),
          .atom (.str "kappa_carbonprice_500_2030"),
          .atom (.str "kappa_carbonprice_500_2050"),
          .atom (.str "kappa_carbonprice_500_2070"),
          .atom (.str "kappa_carbonprice_500_2100"),
          .atom (.str "kappa_carbonprice_1000_2030"),
          .atom (.str "kappa_carbonprice_1000_2050"),
          .atom (.str "kappa_carbonprice_1000_2070"),
          .atom (.str "kappa_carbonprice_1000_2100"),
          .atom (.str "kappa_rel_abatement_0.25_2030"),
          .atom (.str "kappa_rel_abatement_0.25_2050"),
          .atom (.str "kappa_rel_abatement_0.25_2070"),
          .atom (.str "kappa_rel_abatement_0.25_2100"),
          .atom (.str "kappa_rel_abatement_0.4_2030"),
          .atom (.str "kappa_rel_abatement_0.4_2050"),
          .atom (.str "kappa_rel_abatement_0.4_2070"),
          .atom (.str "kappa_rel_abatement_0.4_2100"),
          .atom (.str "kappa_rel_abatement_0.5_2050"),
          .atom (.str "kappa_rel_abatement_0.5_2070"),
          .atom (.str "kappa_rel_abatement_0.5_2100"),
          .atom (.str "kappa_rel_abatement_0.75_2050"),
          .atom (.str "kappa_rel_abatement_0.75_2070"),
          .atom (.str "kappa_rel_abatement_0.75_2100")]),
        (.str "default", .atom (.str "kappa_rel_abatement_0.75_2050"))]),
      (.str "rel_mitigation_costs_min_level", .dict [
        (.str "descr", .atom (.str "Minimum level of mitigation costs (rel to GDP). By default, this is 0: no negative abatement costs are allowed. For certain burden sharing regimes, this value can become negative to allow certain (small) financial transfers.")),
        (.str "type", .atom (.str "float")),
        (.str "min", .atom (.int (-2))),
        (.str "max", .atom (.int 0)),
        (.str "default", .atom (.int 0))])]),
    (.str "emission trade", .dict [
      (.str "min rel payment level", .dict [
        (.str "descr", .atom (.str "Which percentage of the area under the MAC of a region should it pay itself (minimum)? If false: no limt")),
        (.str "type", .atom (.str "float")),
        (.str "min", .atom (.int 0)),
        (.str "max", .atom (.int 1)),
        (.str "default", .atom (.bool false)),
        (.str "can_be_false", .atom (.bool true))]),
      (.str "max rel payment level", .dict [
        (.str "descr", .atom (.str "Which percentage of the area under the MAC of a region should it pay itself (maximum)? If false: no limit")),
        (.str "type", .atom (.str "float")),
        (.str "min", .atom (.int 1)),
        (.str "default", .atom (.bool false)),
        (.str "can_be_false", .atom (.bool true))])]),
    (.str "damages", .dict [
      (.str "percentage reversible", .dict [
        (.str "descr", .atom (.str "Factor of damages that are reversible")),
        (.str "type", .atom (.str "float")),
        (.str "min", .atom (.int 0)),
        (.str "max", .atom (.int 1)),
        (.str "default", .atom (.int 1))]),
      (.str "scale factor", .dict [
        (.str "descr", .atom (.str "Manual scaling factor to increase or decrease damages")),
        (.str "type", .atom (.str "float")),
        (.str "default", .atom (.int 1))]),
      (.str "ignore damages", .dict [
        (.str "descr", .atom (.str "Flag to not take into account the damages in the GDP (but damages are calculated)")),
        (.str "type", .atom (.str "bool")),
        (.str "default", .atom (.bool false))]),
      (.str "quantile", .dict [
        (.str "descr", .atom (.str "Damage quantile (Only used for COACCH)")),
        (.str "type", .atom (.str "enum")),
        (.str "values", .list [
          .atom (.float (.fin (mkRat (1) 40))),
          .atom (.float (.fin (mkRat (1) 20))),
          .atom (.float (.fin (mkRat (4) 25))),
          .atom (.float (.fin (mkRat (1) 4))),
          .atom (.float (.fin (mkRat (33) 100))),
          .atom (.float (.fin (mkRat (1) 2))),
          .atom (.float (.fin (mkRat (67) 100))),
          .atom (.float (.fin (mkRat (3) 4))),
          .atom (.float (.fin (mkRat (21) 25))),
          .atom (.float (.fin (mkRat (19) 20))),
          .atom (.float (.fin (mkRat (39) 40)))]),
        (.str "default", .atom (.float (.fin (mkRat (1) 2))))]),
      (.str "coacch_slr_withadapt", .dict [
        (.str "descr", .atom (.str "Flag to use the SLR-with-Adapation damage functions (Only used for COACCH)")),
        (.str "type", .atom (.str "bool")),
        (.str "default", .atom (.bool true))]),
      (.str "coacch_combined_slr_nonslr_damages", .dict [
        (.str "descr", .atom (.str "If true, do not model SLR damages separately from non-SLR, but use the combined damage functions (Only used for COACCH)")),
        (.str "type", .atom (.str "bool")),
        (.str "default", .atom (.bool false))])])]

/-- config_default.yaml:241 `emissions` -/
def emissions : Val :=
  .dict [
    (.str "carbonbudget", .dict [
      (.str "descr", .atom (.str "Value of the carbon budget. Example: \"800 GtCO2\" (the unit is important). If set to False, no carbon budget is imposed: this is cost-benefit mode. Default: False.")),
      (.str "type", .atom (.str "quantity")),
      (.str "unit", .atom (.str "emissions_unit")),
      (.str "default", .atom (.bool false)),
      (.str "can_be_false", .atom (.bool true))]),
    (.str "global min level", .dict [
      (.str "descr", .atom (.str "Limit on the emission level (globally), mostly used for negative emissions. Can also be false, then no limit is imposed")),
      (.str "type", .atom (.str "quantity")),
      (.str "unit", .atom (.str "emissionsrate_unit")),
      (.str "default", .atom (.str "-20 GtCO2/yr")),
      (.str "can_be_false", .atom (.bool true))]),
    (.str "regional min level", .dict [
      (.str "descr", .atom (.str "Limit on the emission level (per region), mostly used for negative emissions. Can also be false, then no limit is imposed")),
      (.str "type", .atom (.str "quantity")),
      (.str "unit", .atom (.str "emissionsrate_unit")),
      (.str "default", .atom (.str "-10 GtCO2/yr")),
      (.str "can_be_false", .atom (.bool true))]),
    (.str "not positive after budget year", .dict [
      (.str "descr", .atom (.str "If true, impose net-zero emissions after budget year (2100)")),
      (.str "type", .atom (.str "bool")),
      (.str "default", .atom (.bool true))]),
    (.str "non increasing emissions after 2100", .dict [
      (.str "descr", .atom (.str "If true, the regional emissions after 2100 are not allowed to climb.")),
      (.str "type", .atom (.str "bool")),
      (.str "default", .atom (.bool true))]),
    (.str "baseline carbon intensity", .dict [
      (.str "descr", .atom (.str "If true, use baseline carbon intensity to calculate baseline emissions. If false, the SSP baseline emissions are used, regardless of lower GDP.")),
      (.str "type", .atom (.str "bool")),
      (.str "default", .atom (.bool true))]),
    (.str "inertia", .dict [
      (.str "global", .dict [
        (.str "descr", .atom (.str "Maximum reduction speed, in % of initial emissions (should be negative) Can also be false, then no inertia limit is imposed")),
        (.str "type", .atom (.str "float")),
        (.str "max", .atom (.int 0)),
        (.str "default", .atom (.bool false)),
        (.str "can_be_false", .atom (.bool true))]),
      (.str "regional", .dict [
        (.str "descr", .atom (.str "Maximum reduction speed, in % of initial emissions (should be negative) Can also be false, then no inertia limit is imposed")),
        (.str "type", .atom (.str "float")),
        (.str "max", .atom (.int 0)),
        (.str "default", .atom (.float (.fin (mkRat (-1) 20)))),
        (.str "can_be_false", .atom (.bool true))])]),
    (.str "cumulative_emissions_trapz", .dict [
      (.str "descr", .atom (.str "If true, calculate cumulative emissions using trapezoidal interpolation. If false, cum. emissions are simply cum_emissions[t-1] + dt * cum_emissions[t]. This is less accurate, but better for numerical stability. For small dt the approximation is usually still acceptable.")),
      (.str "type", .atom (.str "bool")),
      (.str "default", .atom (.bool true))])]

/-- config_default.yaml:311 `effort sharing` -/
def effort_sharing : Val :=
  .dict [
    (.str "regime", .dict [
      (.str "descr", .atom (.str "Type of effort sharing to be used")),
      (.str "type", .atom (.str "enum")),
      (.str "values", .list [
        .atom (.str "noregime"),
        .atom (.str "equal_mitigation_costs"),
        .atom (.str "equal_total_costs"),
        .atom (.str "per_cap_convergence")]),
      (.str "default", .atom (.str "noregime"))]),
    (.str "percapconv_year", .dict [
      (.str "descr", .atom (.str "Year of convergence to per capita emission allowance (only used when effort sharing - regime is per_cap_convergence) Can also be false, then always use grandfathering")),
      (.str "type", .atom (.str "float")),
      (.str "min", .atom (.int 2020)),
      (.str "max", .atom (.int 2200)),
      (.str "default", .atom (.int 2050)),
      (.str "can_be_false", .atom (.bool true))])]

/-- config_default.yaml:334 `temperature` -/
def temperature : Val :=
  .dict [
    (.str "initial", .dict [
      (.str "descr", .atom (.str "Temperature in initial year of model run (2020 by default).")),
      (.str "type", .atom (.str "quantity")),
      (.str "unit", .atom (.str "temperature_unit")),
      (.str "default", .atom (.str "1.16 delta_degC"))]),
    (.str "TCRE", .dict [
      (.str "descr", .atom (.str "Transient Climate Response to CO2 Emissions")),
      (.str "type", .atom (.str "quantity")),
      (.str "unit", .atom (.str "(temperature_unit)/(emissions_unit)")),
      (.str "default", .atom (.str "0.62 delta_degC/(TtCO2)"))]),
    (.str "target", .dict [
      (.str "descr", .atom (.str "Temperature target in 2100 (and beyond). Can also be false, then no temperature target is imposed")),
      (.str "type", .atom (.str "quantity")),
      (.str "unit", .atom (.str "temperature_unit")),
      (.str "default", .atom (.bool false)),
      (.str "can_be_false", .atom (.bool true))])]

/-- config_default.yaml:358 `model` -/
def model : Val :=
  .dict [
    (.str "damage module", .dict [
      (.str "descr", .atom (.str "Damage module to be used")),
      (.str "type", .atom (.str "enum")),
      (.str "values", .list [
        .atom (.str "COACCH"),
        .atom (.str "nodamage")]),
      (.str "default", .atom (.str "COACCH"))]),
    (.str "emissiontrade module", .dict [
      (.str "descr", .atom (.str "Emission trade module to be used")),
      (.str "type", .atom (.str "enum")),
      (.str "values", .list [
        .atom (.str "notrade"),
        .atom (.str "emissiontrade"),
        .atom (.str "globalcostpool")]),
      (.str "default", .atom (.str "notrade"))]),
    (.str "financialtransfer module", .dict [
      (.str "descr", .atom (.str "Financial transfer module to be used")),
      (.str "type", .atom (.str "enum")),
      (.str "values", .list [
        .atom (.str "notransfer"),
        .atom (.str "globaldamagepool")]),
      (.str "default", .atom (.str "notransfer"))]),
    (.str "welfare module", .dict [
      (.str "descr", .atom (.str "Welfare and utility module to be used")),
      (.str "type", .atom (.str "enum")),
      (.str "values", .list [
        .atom (.str "welfare_loss_minimising"),
        .atom (.str "cost_minimising"),
        .atom (.str "inequal_aversion_general")]),
      (.str "default", .atom (.str "welfare_loss_minimising"))]),
    (.str "objective module", .dict [
      (.str "descr", .atom (.str "Objective module to be used")),
      (.str "type", .atom (.str "enum")),
      (.str "values", .list [
        .atom (.str "utility"),
        .atom (.str "globalcosts")]),
      (.str "default", .atom (.str "utility"))])]

/-- config_default.yaml:401 `regionstype` -/
def regionstype : Val :=
  .dict [
    (.str "descr", .atom (.str "Name of the region definition. Used in the mapping of the regional parameters.")),
    (.str "type", .atom (.str "enum")),
    (.str "values", .list [
      .atom (.str "IMAGE26"),
      .atom (.str "SSP5"),
      .atom (.str "World")]),
    (.str "default", .atom (.str "IMAGE26"))]

/-- config_default.yaml:410 `regionsmappings` -/
def regionsmappings : Val :=
  .dict [
    (.str "descr", .atom (.str "List of region types and their conversion tables. Only used for regional parameters, not for aggregating or disaggregating variables or other output.")),
    (.str "type", .atom (.str "list")),
    (.str "values", .dict [
      (.str "descr", .atom (.str "Dictionary with keys `regionstype1`, `regionstype2` and `conversiontable`.")),
      (.str "type", .atom (.str "dict"))]),
    (.str "default", .list [
      .dict [
        (.str "regionstype1", .atom (.str "IMAGE26")),
        (.str "regionstype2", .atom (.str "COACCH")),
        (.str "conversiontable", .atom (.str "inputdata/regions/IMAGE26_COACCH.csv"))],
      .dict [
        (.str "regionstype1", .atom (.str "IMAGE26")),
        (.str "regionstype2", .atom (.str "ADRICE2010")),
        (.str "conversiontable", .atom (.str "inputdata/regions/IMAGE26_ADRICE2010.csv"))],
      .dict [
        (.str "regionstype1", .atom (.str "IMAGE26")),
        (.str "regionstype2", .atom (.str "ADRICE2012")),
        (.str "conversiontable", .atom (.str "inputdata/regions/IMAGE26_ADRICE2012.csv"))]])]

/-- config_default.yaml:430 `regional_parameter_files` -/
def regional_parameter_files : Val :=
  .dict [
    (.str "descr", .atom (.str "Dictionary of regional parameter files. If the regionstype of the file is different from the regionstype of the model, the file is converted using the `regionsmappings` parameter.")),
    (.str "type", .atom (.str "dict")),
    (.str "keys", .dict [
      (.str "descr", .atom (.str "Names of the parameter category (e.g. 'MAC', 'damage', 'adaptation', etc.) used when assigning the values to the regional parameters.")),
      (.str "type", .atom (.str "str"))]),
    (.str "values", .dict [
      (.str "descr", .atom (.str "Dictionary with keys `filename` and `regionstype`")),
      (.str "type", .atom (.str "dict"))]),
    (.str "default", .dict [
      (.str "economics", .dict [
        (.str "filename", .atom (.str "inputdata/regionalparams/economics.csv")),
        (.str "regionstype", .atom (.str "IMAGE26"))]),
      (.str "MAC", .dict [
        (.str "filename", .atom (.str "inputdata/regionalparams/mac.csv")),
        (.str "regionstype", .atom (.str "IMAGE26"))]),
      (.str "COACCH", .dict [
        (.str "filename", .atom (.str "inputdata/regionalparams/COACCH.csv")),
        (.str "regionstype", .atom (.str "COACCH"))]),
      (.str "mortality", .dict [
        (.str "filename", .atom (.str "inputdata/regionalparams/mortality.csv")),
        (.str "regionstype", .atom (.str "IMAGE26"))])])]

/-- config_default.yaml:460 `regions` -/
def regions : Val :=
  .dict [
    (.str "descr", .atom (.str "Dictionary of all regions with optional dictionaries defining, optionally, manual values for certain parameters for that specific region.")),
    (.str "type", .atom (.str "dict")),
    (.str "keys", .dict [
      (.str "descr", .atom (.str "region name")),
      (.str "type", .atom (.str "str"))]),
    (.str "values", .dict [
      (.str "descr", .atom (.str "optional dict to manually override certain regional parameters")),
      (.str "type", .atom (.str "dict"))]),
    (.str "default", .dict [
      (.str "CAN", .atom .null),
      (.str "USA", .atom .null),
      (.str "MEX", .atom .null),
      (.str "RCAM", .atom .null),
      (.str "BRA", .atom .null),
      (.str "RSAM", .atom .null),
      (.str "NAF", .atom .null),
      (.str "WAF", .atom .null),
      (.str "EAF", .atom .null),
      (.str "SAF", .atom .null),
      (.str "WEU", .atom .null),
      (.str "CEU", .atom .null),
      (.str "TUR", .atom .null),
      (.str "UKR", .atom .null),
      (.str "STAN", .atom .null),
      (.str "RUS", .atom .null),
      (.str "ME", .atom .null),
      (.str "INDIA", .atom .null),
      (.str "KOR", .atom .null),
      (.str "CHN", .atom .null),
      (.str "SEAS", .atom .null),
      (.str "INDO", .atom .null),
      (.str "JAP", .atom .null),
      (.str "OCE", .atom .null),
      (.str "RSAS", .atom .null),
      (.str "RSAF", .atom .null)])]

/-- config_default.yaml:501 `input` -/
def input : Val :=
  .dict [
    (.str "variables", .dict [
      (.str "GDP", .dict [
        (.str "descr", .atom (.str "Data source of GDP")),
        (.str "type", .atom (.str "datasource")),
        (.str "default", .dict [
          (.str "variable", .atom (.str "GDP|PPP")),
          (.str "unit", .atom (.str "currency_unit")),
          (.str "scenario", .atom (.str "{SSP}-Ref-SPA0-V17")),
          (.str "model", .atom (.str "IMAGE")),
          (.str "file", .atom (.str "inputdata/data/data_IMAGE_SSP.csv"))])]),
      (.str "emissions", .dict [
        (.str "descr", .atom (.str "Data source of baseline emissions")),
        (.str "type", .atom (.str "datasource")),
        (.str "default", .dict [
          (.str "variable", .atom (.str "Emissions|CO2")),
          (.str "unit", .atom (.str "emissionsrate_unit")),
          (.str "scenario", .atom (.str "{SSP}-Ref-SPA0-V17")),
          (.str "model", .atom (.str "IMAGE")),
          (.str "file", .atom (.str "inputdata/data/data_IMAGE_SSP.csv"))])]),
      (.str "population", .dict [
        (.str "descr", .atom (.str "Data source of population")),
        (.str "type", .atom (.str "datasource")),
        (.str "default", .dict [
          (.str "variable", .atom (.str "Population")),
          (.str "unit", .atom (.str "population_unit")),
          (.str "scenario", .atom (.str "{SSP}-Ref-SPA0-V17")),
          (.str "model", .atom (.str "IMAGE")),
          (.str "file", .atom (.str "inputdata/data/data_IMAGE_SSP.csv"))])])])]

/-- config_default.yaml:537 `simulation` -/
def simulation : Val :=
  .dict [
    (.str "simulationmode", .dict [
      (.str "descr", .atom (.str "If true, the model is run in simulation mode: then some variables will be imposed exogenously and fixed. If false, `constraint_variables` and `deactivated_constraints` are ignored.")),
      (.str "type", .atom (.str "bool")),
      (.str "default", .atom (.bool false))]),
    (.str "constraint_variables", .dict [
      (.str "descr", .atom (.str "Dictionary of variable names with associated path to file containing values for that variable")),
      (.str "type", .atom (.str "dict")),
      (.str "keys", .dict [
        (.str "descr", .atom (.str "variable name")),
        (.str "type", .atom (.str "str"))]),
      (.str "values", .dict [
        (.str "descr", .atom (.str "path to output file containing values for this file or dictionary with regions as rows and years as columns. NOTE: a Dataframe is not supported yet.")),
        (.str "type", .atom (.str "str_or_plain_dict"))]),
      (.str "default", .atom .null)]),
    (.str "deactivated_constraints", .dict [
      (.str "descr", .atom (.str "List of constraint names to be disabled")),
      (.str "type", .atom (.str "list")),
      (.str "values", .dict [
        (.str "descr", .atom (.str "constraint name to be disabled, as used in the model")),
        (.str "type", .atom (.str "str"))]),
      (.str "default", .atom .null)]),
    (.str "custom_mapping", .dict [
      (.str "descr", .atom (.str "Custom mapping of parameter values or variables")),
      (.str "type", .atom (.str "dict")),
      (.str "default", .atom .null)])]

/-- config_default.yaml: the whole file (top-level entries). -/
def entries : List (Key × Val) :=
  [ (.str "time", time),
    (.str "SSP", SSP),
    (.str "economics", economics),
    (.str "emissions", emissions),
    (.str "effort sharing", effort_sharing),
    (.str "temperature", temperature),
    (.str "model", model),
    (.str "regionstype", regionstype),
    (.str "regionsmappings", regionsmappings),
    (.str "regional_parameter_files", regional_parameter_files),
    (.str "regions", regions),
    (.str "input", input),
    (.str "simulation", simulation) ]

end Mimosa.DefaultYaml
