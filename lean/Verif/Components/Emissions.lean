import Verif.Core.Component

/-! # `mimosa/components/emissions.py` -/

namespace Mimosa.Emissions
open Mimosa RuleOut GeneralConstraint PyNum

/-- emissions.py:191-201, constraint `baseline_emissions`. -/
noncomputable def rBaseline (p : Params) (t : ℕ) (r : String) : RuleOut :=
  .rel (if p.use_carbon_intensity_for_baseline then
      rv .baseline t r =ₚ num (p.baseline_carbon_intensity t r) * rv .GDP_net t r
    else rv .baseline t r =ₚ num (p.baseline_emissions t r))

/-- emissions.py:203-221, constraint `regional_abatement` (skipped at `t = 0`). -/
noncomputable def rRegionalAbatement (p : Params) (t : ℕ) (r : String) : RuleOut :=
  .onlyIf (t > 0)
    (rv .regional_emissions t r =ₚ (num 1 - rv .relative_abatement t r) *
      (if p.use_carbon_intensity_for_baseline then rv .baseline t r
       else num (p.baseline_emissions t r)))

/-- emissions.py:222-224 (unnamed). -/
noncomputable def rRegionalInit (p : Params) (r : String) : RuleOut :=
  .rel (rv .regional_emissions 0 r =ₚ num (p.baseline_emissions 0 r))

/-- emissions.py:225-229, constraint `regional_emission_reduction`. -/
def rReduction (_ : Params) (t : ℕ) (r : String) : RuleOut :=
  .rel (rv .regional_emission_reduction t r =ₚ rv .baseline t r - rv .regional_emissions t r)

/-- emissions.py:231-239, constraint `global_emissions` (skipped at `t = 0`). -/
noncomputable def rGlobal (p : Params) (t : ℕ) : RuleOut :=
  .onlyIf (t > 0)
    (gv .global_emissions t =ₚ sumRegions p fun r => rv .regional_emissions t r)

/-- emissions.py:240-244, constraint `global_emissions_init`. -/
noncomputable def rGlobalInit (p : Params) : RuleOut :=
  .rel (gv .global_emissions 0 =ₚ sumRegions p fun r => num (p.baseline_emissions 0 r))

/-- emissions.py:246-259, constraint `cumulative_emissions`. -/
noncomputable def rCumulative (p : Params) (t : ℕ) : RuleOut :=
  .onlyIf (t > 0)
    (gv .cumulative_emissions t =ₚ gv .cumulative_emissions (t - 1) +
      (if p.cumulative_emissions_trapz then
        num p.dt * (gv .global_emissions t + gv .global_emissions (t - 1)) / num 2
       else num p.dt * gv .global_emissions t))

/-- emissions.py:260 (unnamed). -/
noncomputable def rCumulativeInit (_ : Params) : RuleOut :=
  .rel (gv .cumulative_emissions 0 =ₚ num 0)

/-- emissions.py:267-278, constraint `relative_cumulative_emissions`. -/
noncomputable def rRelCumulative (p : Params) (t : ℕ) : RuleOut :=
  .onlyIf (t > 0)
    (gv .emission_relative_cumulative t =ₚ
      gv .cumulative_emissions t / num (p.cumulative_global_baseline_emissions t))

/-- emissions.py:279 (unnamed). -/
noncomputable def rRelCumulativeInit (_ : Params) : RuleOut :=
  .rel (gv .emission_relative_cumulative 0 =ₚ num 1)

/-- emissions.py:83-283 `_get_emissions_constraints`. -/
noncomputable def emissionsConstraints : List GeneralConstraint :=
  [ .regional rBaseline (some "baseline_emissions"),
    .regional rRegionalAbatement (some "regional_abatement"),
    .regionalInit rRegionalInit none,
    .regional rReduction (some "regional_emission_reduction"),
    .global rGlobal (some "global_emissions"),
    .globalInit rGlobalInit (some "global_emissions_init"),
    .global rCumulative (some "cumulative_emissions"),
    .globalInit rCumulativeInit none,
    .global rRelCumulative (some "relative_cumulative_emissions"),
    .globalInit rRelCumulativeInit none ]

/-- emissions.py:362-366, constraint `temperature`. -/
noncomputable def rTemperature (p : Params) (t : ℕ) : RuleOut :=
  .rel (gv .temperature t =ₚ num p.T0 + num p.TCRE * gv .cumulative_emissions t)

/-- emissions.py:367 (unnamed). -/
noncomputable def rTemperatureInit (p : Params) : RuleOut :=
  .rel (gv .temperature 0 =ₚ num p.T0)

/-- emissions.py:368-375, constraint `temperature_target`. -/
noncomputable def rTemperatureTarget (p : Params) (t : ℕ) : RuleOut :=
  match p.temperature_target with
  | some target => .onlyIf (p.year t ≥ 2100) (gv .temperature t ≤ₚ num target)
  | none => .skip

/-- emissions.py:286-399 `_get_temperature_constraints`. -/
noncomputable def temperatureConstraints : List GeneralConstraint :=
  [ .global rTemperature (some "temperature"),
    .globalInit rTemperatureInit none,
    .global rTemperatureTarget (some "temperature_target") ]

/-- emissions.py:524-540, constraint `carbon_budget`.  Note the use of `m.overshoot`, whose declaration is
commented out (emissions.py:381). -/
noncomputable def rCarbonBudget (p : Params) (t : ℕ) : RuleOut :=
  match p.budget with
  | some budget => .onlyIf (p.year t ≥ 2100)
      (gv .cumulative_emissions t - (num budget +
        (if p.perc_reversible_damages < 1 then
          gv .overshoot t * (num 1 - num p.perc_reversible_damages)
         else num 0)) ≤ₚ num 0)
  | none => .skip

/-- emissions.py:541 (unnamed). -/
noncomputable def rCumulativeNonneg (_ : Params) (t : ℕ) : RuleOut :=
  .rel (gv .cumulative_emissions t ≥ₚ num 0)

/-- emissions.py:543-553, constraint `global_inertia`. -/
noncomputable def rGlobalInertia (p : Params) (t : ℕ) : RuleOut :=
  match p.inertia_global with
  | some inertia => .onlyIf (t > 0)
      (gv .global_emissions t - gv .global_emissions (t - 1) ≥ₚ
        num p.dt * num inertia * sumRegions p fun r => num (p.baseline_emissions 0 r))
  | none => .skip

/-- emissions.py:554-562, constraint `regional_inertia`. -/
noncomputable def rRegionalInertia (p : Params) (t : ℕ) (r : String) : RuleOut :=
  match p.inertia_regional with
  | some inertia => .onlyIf (t > 0)
      (rv .regional_emissions t r - rv .regional_emissions (t - 1) r ≥ₚ
        num p.dt * num inertia * num (p.baseline_emissions 0 r))
  | none => .skip

/-- emissions.py:563-570, constraint `global_min_level`. -/
noncomputable def rGlobalMinLevel (p : Params) (t : ℕ) : RuleOut :=
  match p.global_min_level with
  | some level => .rel (gv .global_emissions t ≥ₚ num level)
  | none => .skip

/-- emissions.py:571-578, constraint `regional_min_level`. -/
noncomputable def rRegionalMinLevel (p : Params) (t : ℕ) (r : String) : RuleOut :=
  match p.regional_min_level with
  | some level => .rel (rv .regional_emissions t r ≥ₚ num level)
  | none => .skip

/-- emissions.py:579-587, constraint `non_increasing_emissions_after_2100`. -/
noncomputable def rNonIncreasing (p : Params) (t : ℕ) (r : String) : RuleOut :=
  .onlyIf (p.year (t - 1) > 2100 ∧ p.non_increasing_emissions_after_2100 = true)
    (rv .regional_emissions t r - rv .regional_emissions (t - 1) r ≤ₚ num 0)

/-- emissions.py:588-599, constraint `net_zero_after_2100`. -/
noncomputable def rNetZero (p : Params) (t : ℕ) : RuleOut :=
  .onlyIf (p.year t ≥ 2100 ∧ p.no_pos_emissions_after_budget_year = true ∧ p.budget ≠ none)
    (gv .global_emissions t ≤ₚ num 0)

/-- emissions.py:402-603 `_get_inertia_and_budget_constraints`. -/
noncomputable def inertiaBudgetConstraints : List GeneralConstraint :=
  [ .global rCarbonBudget (some "carbon_budget"),
    .global rCumulativeNonneg none,
    .global rGlobalInertia (some "global_inertia"),
    .regional rRegionalInertia (some "regional_inertia"),
    .global rGlobalMinLevel (some "global_min_level"),
    .regional rRegionalMinLevel (some "regional_min_level"),
    .regional rNonIncreasing (some "non_increasing_emissions_after_2100"),
    .global rNetZero (some "net_zero_after_2100") ]

/-- emissions.py:24-80,162-187,264,354-359,379,510-520 `get_constraints` with the declared variables and
parameters. -/
noncomputable def component : Component where
  vars :=
    [ .regional .regional_emissions noBound noBound,
      .regional .baseline noBound noBound,
      .regional .relative_abatement (fun _ => some 0) (fun _ => some (5 / 2)),
      .regional .regional_emission_reduction noBound noBound,
      .global .cumulative_emissions noBound noBound,
      .global .global_emissions noBound noBound,
      .global .emission_relative_cumulative noBound noBound,
      .global .temperature noBound noBound ]
  params :=
    [ ⟨"cumulative_baseline_emissions", .overTR, .none⟩,
      ⟨"cumulative_global_baseline_emissions", .overT, .none⟩,
      ⟨"baseline_carbon_intensity", .overTR, .none⟩,
      ⟨"use_carbon_intensity_for_baseline", .scalar, .str "::emissions.baseline carbon intensity"⟩,
      ⟨"cumulative_emissions_trapz", .scalar, .str "::emissions.cumulative_emissions_trapz"⟩,
      ⟨"T0", .scalar, .str "::temperature.initial"⟩,
      ⟨"TCRE", .scalar, .str "::temperature.TCRE"⟩,
      ⟨"temperature_target", .scalar, .str "::temperature.target"⟩,
      ⟨"perc_reversible_damages", .scalar, .str "::economics.damages.percentage reversible"⟩,
      ⟨"budget", .scalar, .str "::emissions.carbonbudget"⟩,
      ⟨"inertia_global", .scalar, .str "::emissions.inertia.global"⟩,
      ⟨"inertia_regional", .scalar, .str "::emissions.inertia.regional"⟩,
      ⟨"global_min_level", .scalar, .str "::emissions.global min level"⟩,
      ⟨"regional_min_level", .scalar, .str "::emissions.regional min level"⟩,
      ⟨"non_increasing_emissions_after_2100", .scalar,
        .str "::emissions.non increasing emissions after 2100"⟩,
      ⟨"no_pos_emissions_after_budget_year", .scalar,
        .str "::emissions.not positive after budget year"⟩ ]
  constraints := emissionsConstraints ++ temperatureConstraints ++ inertiaBudgetConstraints

end Mimosa.Emissions
