import Verif.Data.Instantiate
import Verif.Config.DefaultYaml

/-!
# From the user's configuration to the model instance (`MIMOSA.__init__`, mimosa.py:51-63)
-/

namespace Mimosa

/-- mimosa.py:70-74: the five module names in the configuration. -/
def readModules (params : Val) : Except Err Modules :=
  match getNested [.str "model"] params with
  | .error e => .error e
  | .ok m => match strItem "damage module" m, strItem "emissiontrade module" m, strItem "financialtransfer module" m,
      strItem "welfare module" m, strItem "objective module" m with
    | .ok d, .ok t, .ok f, .ok w, .ok o => Modules.ofStrings d t f w o
    | .error e, _, _, _, _ => .error e
    | _, .error e, _, _, _ => .error e
    | _, _, .error e, _, _ => .error e
    | _, _, _, .error e, _ => .error e
    | _, _, _, _, .error e => .error e

/-! ## Reading the instance data

Pyomo's `create_instance(data)` gives each `Param` the value `data[None][name]` (instantiate_params.py:33-34).  A
parameter that is not declared by the chosen modules, an empty cell and an entry of the custom mapping (which is
in Pyomo's own format) have an arbitrary value here (`0`, `""`, `none`); the theorems exclude them. -/

/-- The number a Python value stands for.
[Pyomo `value` of a `Param`, instantiate_params.py:60-127] -/
noncomputable def Val.num : Val → Option ℝ
  | .atom (.bool b) => some (if b then 1 else 0)
  | .atom (.int i) => some i
  | .atom (.float (.fin q)) => some q
  | _ => none

section
variable (I : List (String × IData))

/-- The value of a parameter without index. [instantiate_params.py:84-91] -/
def scalarOf (name : String) : Option Val :=
  match instanceValue name I with
  | some (.scalar v) => some v
  | _ => none

/-- The number of a parameter without index. [instantiate_params.py:84-91] -/
noncomputable def numOf (name : String) : ℝ := ((scalarOf I name).bind Val.num).getD 0

/-- A parameter that is a number or `False`. [instantiate_params.py:84-91] -/
noncomputable def optOf (name : String) : Option ℝ :=
  match scalarOf I name with
  | some (.atom (.bool false)) => none
  | some v => Val.num v
  | none => none

/-- `if value(m.name)`: the truth value of a parameter without index.
[instantiate_params.py:84-91] -/
def boolOf (name : String) : Bool :=
  match scalarOf I name with
  | some v => Val.truthy v
  | none => false

/-- The text of a parameter without index. [instantiate_params.py:84-91] -/
def textOf (name : String) : String :=
  match scalarOf I name with
  | some (.atom (.str s)) => s
  | _ => ""

/-- The whole number of a parameter without index (`tf`). [instantiate_params.py:60-72] -/
def intOf (name : String) : ℤ :=
  match scalarOf I name with
  | some (.atom (.int i)) => i
  | _ => 0

/-- The elements of a `Set` (`regions`). [instantiate_params.py:60-72] -/
def namesOf (name : String) : List String :=
  match instanceValue name I with
  | some (.names l) => l
  | _ => []

/-- The value of a parameter over regions. [instantiate_params.py:94-100] -/
def regionItem (name r : String) : Option Val :=
  match instanceValue name I with
  | some (.regional l) => (l.find? fun e => decide (e.1 = r)).map (·.2)
  | _ => none

/-- The number of a parameter over regions. [instantiate_params.py:94-100] -/
noncomputable def regionNum (name r : String) : ℝ := ((regionItem I name r).bind Val.num).getD 0

/-- The text of a parameter over regions (functional forms). [instantiate_params.py:94-100] -/
def regionText (name r : String) : String :=
  match regionItem I name r with
  | some (.atom (.str s)) => s
  | _ => ""

/-- The number of a parameter over years and regions. [instantiate_params.py:103-111] -/
noncomputable def seriesNum (name : String) (t : ℕ) (r : String) : ℝ :=
  match instanceValue name I with
  | some (.timeRegional l) => match l.find? fun e => decide (e.1 = (t, r)) with
    | some e => (e.2 : ℝ)
    | none => 0
  | _ => 0

/-- instantiate_params.py:33-34 `create_instance(self.instance_data)`: the values of all parameters that are not
computed by the model itself. -/
noncomputable def paramsOf : Params where
  regions := namesOf I "regions"
  tf := (intOf I "tf").toNat
  beginyear := numOf I "beginyear"
  dt := numOf I "dt"
  population := seriesNum I "population"
  baseline_GDP := seriesNum I "baseline_GDP"
  baseline_emissions := seriesNum I "baseline_emissions"
  use_carbon_intensity_for_baseline := boolOf I "use_carbon_intensity_for_baseline"
  cumulative_emissions_trapz := boolOf I "cumulative_emissions_trapz"
  T0 := numOf I "T0"
  TCRE := numOf I "TCRE"
  temperature_target := optOf I "temperature_target"
  perc_reversible_damages := numOf I "perc_reversible_damages"
  budget := optOf I "budget"
  inertia_global := optOf I "inertia_global"
  inertia_regional := optOf I "inertia_regional"
  global_min_level := optOf I "global_min_level"
  regional_min_level := optOf I "regional_min_level"
  non_increasing_emissions_after_2100 := boolOf I "non_increasing_emissions_after_2100"
  no_pos_emissions_after_budget_year := boolOf I "no_pos_emissions_after_budget_year"
  damage_scale_factor := numOf I "damage_scale_factor"
  noslr := ⟨regionText I "damage_noslr_form", regionNum I "damage_noslr_b1", regionNum I "damage_noslr_b2",
    regionNum I "damage_noslr_b3", regionNum I "damage_noslr_a"⟩
  slr := ⟨regionText I "damage_slr_form", regionNum I "damage_slr_b1", regionNum I "damage_slr_b2",
    regionNum I "damage_slr_b3", regionNum I "damage_slr_a"⟩
  mortality_oldest := ⟨regionNum I "mortality_param_oldest_a", regionNum I "mortality_param_oldest_b",
    regionNum I "mortality_param_oldest_c"⟩
  mortality_older := ⟨regionNum I "mortality_param_older_a", regionNum I "mortality_param_older_b",
    regionNum I "mortality_param_older_c"⟩
  mortality_young := ⟨regionNum I "mortality_param_young_a", regionNum I "mortality_param_young_b",
    regionNum I "mortality_param_young_c"⟩
  MAC_gamma := numOf I "MAC_gamma"
  MAC_beta := numOf I "MAC_beta"
  MAC_scaling_factor := regionNum I "MAC_scaling_factor"
  rel_mitigation_costs_min_level := numOf I "rel_mitigation_costs_min_level"
  LBD_rate := numOf I "LBD_rate"
  LBD_scaling := numOf I "LBD_scaling"
  LOT_rate := numOf I "LOT_rate"
  effort_sharing_regime := textOf I "effort_sharing_regime"
  percapconv_year := optOf I "percapconv_year"
  init_capitalstock_factor := regionNum I "init_capitalstock_factor"
  alpha := numOf I "alpha"
  dk := numOf I "dk"
  sr := numOf I "sr"
  ignore_damages := boolOf I "ignore_damages"
  elasmu := numOf I "elasmu"
  inequal_aversion := numOf I "inequal_aversion"
  PRTP := numOf I "PRTP"

end

/-- mimosa.py:51-60: the constructor `MIMOSA(user)` (with the data cache `c` that earlier models of the process left)
reaches Pyomo's `create_instance` with the modules `md` and the instance data `entries`.  `params` and `tree` are the
final configuration and its parsers. -/
structure Setup (B : Builtins) (uni : Char → Bool) (F : RegionalFiles) (W : DataWorld) (user : Val) (c : DataCache)
    (params : Val) (tree : Py Parser) (md : Modules) (entries : List (String × IData)) : Prop where
  config : mimosaParams B uni DefaultYaml.entries user = .ok (params, tree)
  modules : readModules params = .ok md
  inst : instantiate B F W (allParams md) params tree c = .ok entries

end Mimosa
