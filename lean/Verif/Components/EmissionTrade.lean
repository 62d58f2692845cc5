import Verif.Components.Mitigation

/-! # `mimosa/components/emissiontrade/{notrade,emissiontrade,globalcostpool}.py` -/

namespace Mimosa.EmissionTrade
open Mimosa RuleOut GeneralConstraint PyNum

/-- notrade.py:15-35 `get_constraints`: no variables and no constraints; the two balances are `Param`s
equal to `0` (see `Mitigation.costBalance`). -/
def notrade : Component where
  vars := []
  params :=
    [ ⟨"import_export_emission_reduction_balance", .overTR, .none⟩,
      ⟨"import_export_mitigation_cost_balance", .overTR, .none⟩ ]
  constraints := []

/-- emissiontrade.py:64-69, constraint `global_carbonprice`. -/
noncomputable def rGlobalCarbonprice (p : Params) (t : ℕ) : RuleOut :=
  .rel (gv .global_carbonprice t =ₚ
    (sumRegions p fun r => rv .carbonprice t r * num (p.population t r)) /
      (sumRegions p fun r => num (p.population t r)))

/-- emissiontrade.py:89-95, constraint `sum_mitigation_equals_sum_area_under_mac`. -/
noncomputable def rSumBalance (p : Params) (t : ℕ) : RuleOut :=
  .rel ((sumRegions p fun r => rv .import_export_mitigation_cost_balance t r) =ₚ num 0)

/-- emissiontrade.py:97-106, constraint `import_export_emission_reduction_balance`. -/
noncomputable def rReductionBalance (_ : Params) (t : ℕ) (r : String) : RuleOut :=
  .onlyIf (t > 0)
    (rv .import_export_emission_reduction_balance t r =ₚ
      rv .import_export_mitigation_cost_balance t r / soft_min (gv .global_carbonprice t))

/-- emissiontrade.py:108-119, constraint `paid_for_emission_reductions`. -/
noncomputable def rPaid (_ : Params) (t : ℕ) (r : String) : RuleOut :=
  .onlyIf (t > 0)
    (rv .paid_for_emission_reductions t r =ₚ
      rv .regional_emission_reduction t r + rv .import_export_emission_reduction_balance t r)

/-- emissiontrade.py:121-128 (unnamed). -/
noncomputable def rAllowances (_ : Params) (t : ℕ) (r : String) : RuleOut :=
  .onlyIf (t > 0)
    (rv .regional_emission_allowances t r =ₚ
      rv .baseline t r - rv .paid_for_emission_reductions t r)

/-- emissiontrade.py:20-132 `get_constraints`. -/
noncomputable def emissiontrade : Component where
  vars :=
    [ .global .global_carbonprice noBound noBound,
      .regional .paid_for_emission_reductions noBound noBound,
      .regional .regional_emission_allowances noBound noBound,
      .regional .import_export_emission_reduction_balance noBound noBound,
      .regional .import_export_mitigation_cost_balance noBound noBound ]
  params := []
  constraints :=
    [ .global rGlobalCarbonprice (some "global_carbonprice"),
      .global rSumBalance (some "sum_mitigation_equals_sum_area_under_mac"),
      .regional rReductionBalance (some "import_export_emission_reduction_balance"),
      .regional rPaid (some "paid_for_emission_reductions"),
      .regional rAllowances none ]

/-- globalcostpool.py:51-55: the constraint is named `mitigation_costs`, like mitigation.py:241. -/
noncomputable def rPoolArea (p : Params) (t : ℕ) (r : String) : RuleOut :=
  .rel (rv .area_under_MAC t r =ₚ Mitigation.mAC p t r * rv .baseline t r)

/-- globalcostpool.py:56-60, constraint `sum_abatement_equals_sum_area_under_mac`. -/
def rPoolSum (p : Params) (t : ℕ) : RuleOut :=
  .rel ((sumRegions p fun r => rv .mitigation_costs t r) =ₚ
    (sumRegions p fun r => rv .area_under_MAC t r))

/-- globalcostpool.py:77-86, constraint `paid_for_emission_reductions`. -/
noncomputable def rPoolPaid (_ : Params) (t : ℕ) (r : String) : RuleOut :=
  .onlyIf (t > 0)
    (rv .paid_for_emission_reductions t r =ₚ
      rv .mitigation_costs t r * gv .global_emission_reduction_per_cost_unit t)

/-- globalcostpool.py:88-97, constraint `import_export_emission_reduction_balance`. -/
noncomputable def rPoolReductionBalance (_ : Params) (t : ℕ) (r : String) : RuleOut :=
  .onlyIf (t > 0)
    (rv .import_export_emission_reduction_balance t r =ₚ
      rv .paid_for_emission_reductions t r - rv .regional_emission_reduction t r)

/-- globalcostpool.py:98-102, constraint `import_export_mitigation_cost_balance`. -/
def rPoolCostBalance (_ : Params) (t : ℕ) (r : String) : RuleOut :=
  .rel (rv .import_export_mitigation_cost_balance t r =ₚ
    rv .mitigation_costs t r - rv .area_under_MAC t r)

/-- globalcostpool.py:22-114 `get_constraints`.  `area_under_MAC` was already declared by the mitigation
component (mitigation.py:225); Pyomo replaces the attribute, so the new bound applies. -/
noncomputable def globalcostpool : Component where
  vars :=
    [ .regional .area_under_MAC (fun _ => some 0) noBound,
      .regional .paid_for_emission_reductions noBound noBound,
      .regional .import_export_emission_reduction_balance noBound noBound,
      .regional .import_export_mitigation_cost_balance noBound noBound ]
  params :=
    [ ⟨"min_rel_payment_level", .scalar, .str "::economics.emission trade.min rel payment level"⟩,
      ⟨"max_rel_payment_level", .scalar, .str "::economics.emission trade.max rel payment level"⟩ ]
  constraints :=
    [ .regional rPoolArea (some "mitigation_costs"),
      .global rPoolSum (some "sum_abatement_equals_sum_area_under_mac"),
      .regional rPoolPaid (some "paid_for_emission_reductions"),
      .regional rPoolReductionBalance (some "import_export_emission_reduction_balance"),
      .regional rPoolCostBalance (some "import_export_mitigation_cost_balance") ]

/-- abstract_model.py:109-118: the selected emission trading module. -/
noncomputable def component : TradeModule → Component
  | .notrade => notrade
  | .globalcostpool => globalcostpool
  | .emissiontrade => emissiontrade

end Mimosa.EmissionTrade
