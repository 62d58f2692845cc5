import Verif.Core.Component
import Verif.Core.Modules

/-! # `mimosa/components/mitigation.py` -/

namespace Mimosa.Mitigation
open Mimosa RuleOut GeneralConstraint PyNum

section utils
variable {α : Type} [PyNum α]

/-- mitigation.py:412-414 `MAC(a, m, t, r)`: `learning * scaling * gamma * a**beta`. -/
noncomputable def MAC (a learning : α) (scaling gamma beta : ℝ) : α :=
  learning * lit scaling * lit gamma * pow a (lit beta)

/-- mitigation.py:417-419 `AC(a, m, t, r)`: `learning * scaling * gamma * a ** (beta + 1) / (beta + 1)`. -/
noncomputable def AC (a learning : α) (scaling gamma beta : ℝ) : α :=
  learning * lit scaling * lit gamma * pow a (lit (beta + 1)) / lit (beta + 1)

theorem MAC_real (a l s g b : ℝ) : MAC a l s g b = l * s * g * a ^ b := rfl
theorem AC_real (a l s g b : ℝ) : AC a l s g b = l * s * g * a ^ (b + 1) / (b + 1) := rfl
end utils

/-- `MAC(m.relative_abatement[t, r], m, t, r)` [mitigation.py:412-414] -/
noncomputable def mMAC (p : Params) (t : ℕ) (r : String) : Expr :=
  MAC (rv .relative_abatement t r) (gv .learning_factor t) (p.MAC_scaling_factor r) p.MAC_gamma p.MAC_beta
/-- `AC(m.relative_abatement[t, r], m, t, r)` [mitigation.py:417-419] -/
noncomputable def mAC (p : Params) (t : ℕ) (r : String) : Expr :=
  AC (rv .relative_abatement t r) (gv .learning_factor t) (p.MAC_scaling_factor r) p.MAC_gamma p.MAC_beta

/-- mitigation.py:204-208, constraint `carbonprice`. -/
noncomputable def rCarbonprice (p : Params) (t : ℕ) (r : String) : RuleOut :=
  .rel (rv .carbonprice t r =ₚ mMAC p t r)

/-- mitigation.py:209-211, constraint `init_carbon_price`. -/
noncomputable def rInitCarbonprice (_ : Params) (r : String) : RuleOut :=
  .rel (rv .carbonprice 0 r =ₚ num 0)

/-- `m.import_export_mitigation_cost_balance[t, r]`: a variable in the trading modules, a `Param` equal to
`0` in `notrade` (notrade.py:31-33). -/
noncomputable def costBalance (trade : TradeModule) (t : ℕ) (r : String) : Expr :=
  match trade with
  | .notrade => num 0
  | _ => rv .import_export_mitigation_cost_balance t r

/-- mitigation.py:237-242, constraint `mitigation_costs`. -/
noncomputable def rMitigationCosts (trade : TradeModule) (p : Params) (t : ℕ) (r : String) : RuleOut :=
  .rel (rv .mitigation_costs t r =ₚ mAC p t r * rv .baseline t r + costBalance trade t r)

/-- mitigation.py:245-249, constraint `area_under_MAC`. -/
noncomputable def rArea (p : Params) (t : ℕ) (r : String) : RuleOut :=
  .rel (rv .area_under_MAC t r =ₚ mAC p t r * rv .baseline t r)

/-- mitigation.py:250-255, constraint `rel_mitigation_costs`. -/
def rRelCosts (_ : Params) (t : ℕ) (r : String) : RuleOut :=
  .rel (rv .rel_mitigation_costs t r =ₚ rv .mitigation_costs t r / rv .GDP_gross t r)

/-- mitigation.py:256-260, constraint `rel_mitigation_costs_non_negative`. -/
noncomputable def rRelCostsMin (p : Params) (t : ℕ) (r : String) : RuleOut :=
  .rel (rv .rel_mitigation_costs t r ≥ₚ
    num (if t > 0 then p.rel_mitigation_costs_min_level else 0))

/-- mitigation.py:268-273, constraint `global_rel_mitigation_costs`. -/
def rGlobalRel (p : Params) (t : ℕ) : RuleOut :=
  .rel (gv .global_rel_mitigation_costs t =ₚ
    (sumRegions p fun r => rv .mitigation_costs t r) / (sumRegions p fun r => rv .GDP_gross t r))

/-- mitigation.py:288-297, constraint `global_emission_reduction_per_cost_unit`. -/
noncomputable def rReductionPerCost (p : Params) (t : ℕ) : RuleOut :=
  .onlyIf (t > 0)
    (gv .global_emission_reduction_per_cost_unit t =ₚ
      (sumRegions p fun r => rv .regional_emission_reduction t r) /
        soft_min (sumRegions p fun r => rv .mitigation_costs t r))

/-- mitigation.py:298-309, constraint `global_cost_per_emission_reduction_unit`. -/
noncomputable def rCostPerReduction (p : Params) (t : ℕ) : RuleOut :=
  .onlyIf (t > 0)
    (gv .global_cost_per_emission_reduction_unit t =ₚ
      (sumRegions p fun r => rv .mitigation_costs t r) /
        soft_min (sumRegions p fun r => rv .regional_emission_reduction t r))

/-- mitigation.py:39-313 `_get_mac_constraints`. -/
noncomputable def macConstraints (trade : TradeModule) : List GeneralConstraint :=
  [ .regional rCarbonprice (some "carbonprice"),
    .regionalInit rInitCarbonprice (some "init_carbon_price"),
    .regional (rMitigationCosts trade) (some "mitigation_costs"),
    .regional rArea (some "area_under_MAC"),
    .regional rRelCosts (some "rel_mitigation_costs"),
    .regional rRelCostsMin (some "rel_mitigation_costs_non_negative"),
    .global rGlobalRel (some "global_rel_mitigation_costs"),
    .global rReductionPerCost (some "global_emission_reduction_per_cost_unit"),
    .global rCostPerReduction (some "global_cost_per_emission_reduction_unit") ]

/-- mitigation.py:374-385, constraint `LBD`. -/
noncomputable def rLBD (p : Params) (t : ℕ) : RuleOut :=
  .rel (gv .LBD_factor t =ₚ
    pow (soft_min ((num (p.cumulative_global_baseline_emissions t) - gv .cumulative_emissions t)
        / num p.LBD_scaling + num 1)) (num p.log_LBD_rate))

/-- mitigation.py:393-395, constraint `LOT` (`t` is the time index, not the year). -/
noncomputable def rLOT (p : Params) (t : ℕ) : RuleOut :=
  .rel (gv .LOT_factor t =ₚ num 1 / pow (num 1 + num p.LOT_rate) (num t))

/-- mitigation.py:396-400, constraint `learning`. -/
def rLearning (_ : Params) (t : ℕ) : RuleOut :=
  .rel (gv .learning_factor t =ₚ gv .LBD_factor t * gv .LOT_factor t)

/-- mitigation.py:316-404 `_get_learning_constraints`. -/
noncomputable def learningConstraints : List GeneralConstraint :=
  [ .global rLBD (some "LBD"), .global rLOT (some "LOT"), .global rLearning (some "learning") ]

/-- mitigation.py:22-36 `get_constraints`. -/
noncomputable def component (trade : TradeModule) : Component where
  vars :=
    [ .regional .carbonprice (fun _ => some 0) (fun p => some (2 * p.MAC_gamma)),
      .regional .mitigation_costs noBound noBound,
      .regional .area_under_MAC noBound noBound,
      .regional .rel_mitigation_costs noBound noBound,
      .global .global_rel_mitigation_costs noBound noBound,
      .global .global_emission_reduction_per_cost_unit noBound noBound,
      .global .global_cost_per_emission_reduction_unit noBound noBound,
      .global .LBD_factor noBound noBound,
      .global .LOT_factor noBound noBound,
      .global .learning_factor noBound noBound ]
  params :=
    [ ⟨"MAC_gamma", .scalar, .str "::economics.MAC.gamma"⟩,
      ⟨"MAC_beta", .scalar, .str "::economics.MAC.beta"⟩,
      ⟨"MAC_scaling_factor", .overR, .fn fun strOf params =>
        match showNested strOf ["economics", "MAC", "regional calibration factor"] params with
        | .ok s => .ok ("regional::MAC." ++ s)
        | .error e => .error e⟩,
      ⟨"rel_mitigation_costs_min_level", .scalar,
        .str "::economics.MAC.rel_mitigation_costs_min_level"⟩,
      ⟨"LBD_rate", .scalar, .str "::economics.MAC.LBD_rate"⟩,
      ⟨"log_LBD_rate", .scalar, .none⟩,
      ⟨"LBD_scaling", .scalar, .str "::economics.MAC.LBD_scaling"⟩,
      ⟨"LOT_rate", .scalar, .str "::economics.MAC.LOT_rate"⟩ ]
  constraints := macConstraints trade ++ learningConstraints

end Mimosa.Mitigation
