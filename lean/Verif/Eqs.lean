import Verif.AbstractModel
import Verif.Lib.SoftFacts

/-!
# The constraints of a solution as equations between real numbers

For each component: a structure with one field per constraint, and a proof that it is equivalent to the
component's constraints.  Nothing is assumed here; these are consequences of the model definitions.
-/

set_option linter.unusedSimpArgs false

namespace Mimosa
open Rel

/-- Value of a global variable at a time step. [save.py:58] -/
abbrev Env.G (σ : Env) (v : GVar) (t : ℕ) : ℝ := σ.g v (t : ℤ)
/-- Value of a regional variable at a time step. [save.py:56] -/
abbrev Env.R (σ : Env) (v : RVar) (t : ℕ) (r : String) : ℝ := σ.r v (t : ℤ) r

/-- Sum over the regions. [`sum(... for r in m.regions)`, e.g. globaldamagepool.py:58] -/
def Params.sumR (p : Params) (f : String → ℝ) : ℝ := (p.regions.map f).sum

theorem forall_pos_iff {tf : ℕ} {P : ℕ → Prop} :
    (∀ t ≤ tf, t > 0 → P t) ↔ ∀ t < tf, P (t + 1) := by
  constructor
  · intro h t ht; exact h (t + 1) ht (Nat.succ_pos t)
  · intro h t ht h0
    obtain ⟨s, rfl⟩ := Nat.exists_eq_succ_of_ne_zero (Nat.pos_iff_ne_zero.1 h0)
    exact h s ht

theorem forall_pos_iff' {tf : ℕ} {L : List String} {P : ℕ → String → Prop} :
    (∀ t ≤ tf, ∀ r ∈ L, t > 0 → P t r) ↔ ∀ t < tf, ∀ r ∈ L, P (t + 1) r := by
  constructor
  · intro h t ht r hr; exact h (t + 1) ht r hr (Nat.succ_pos t)
  · intro h t ht r hr h0
    obtain ⟨s, rfl⟩ := Nat.exists_eq_succ_of_ne_zero (Nat.pos_iff_ne_zero.1 h0)
    exact h s ht r hr

@[simp] theorem cast_succ_sub_one (t : ℕ) : (((t + 1 : ℕ) : ℤ) - 1) = (t : ℤ) := by push_cast; ring

variable (p : Params) (σ : Env)

/-- emissions.py -/
structure EmissionsEqs : Prop where
  baseline : ∀ t ≤ p.tf, ∀ r ∈ p.regions, σ.R .baseline t r =
    if p.use_carbon_intensity_for_baseline then p.baseline_carbon_intensity t r * σ.R .GDP_net t r
    else p.baseline_emissions t r
  regional_emissions : ∀ t < p.tf, ∀ r ∈ p.regions, σ.R .regional_emissions (t + 1) r =
    (1 - σ.R .relative_abatement (t + 1) r) *
      (if p.use_carbon_intensity_for_baseline then σ.R .baseline (t + 1) r
       else p.baseline_emissions (t + 1) r)
  regional_emissions_init : ∀ r ∈ p.regions,
    σ.R .regional_emissions 0 r = p.baseline_emissions 0 r
  reduction : ∀ t ≤ p.tf, ∀ r ∈ p.regions,
    σ.R .regional_emission_reduction t r = σ.R .baseline t r - σ.R .regional_emissions t r
  global_emissions : ∀ t < p.tf,
    σ.G .global_emissions (t + 1) = p.sumR fun r => σ.R .regional_emissions (t + 1) r
  global_emissions_init : σ.G .global_emissions 0 = p.sumR fun r => p.baseline_emissions 0 r
  cumulative : ∀ t < p.tf, σ.G .cumulative_emissions (t + 1) = σ.G .cumulative_emissions t +
    (if p.cumulative_emissions_trapz then
      p.dt * (σ.G .global_emissions (t + 1) + σ.G .global_emissions t) / 2
     else p.dt * σ.G .global_emissions (t + 1))
  cumulative_init : σ.G .cumulative_emissions 0 = 0
  rel_cumulative : ∀ t < p.tf, p.cumulative_global_baseline_emissions (t + 1) ≠ 0 ∧
    σ.G .emission_relative_cumulative (t + 1) =
      σ.G .cumulative_emissions (t + 1) / p.cumulative_global_baseline_emissions (t + 1)
  rel_cumulative_init : σ.G .emission_relative_cumulative 0 = 1
  temperature : ∀ t ≤ p.tf, σ.G .temperature t = p.T0 + p.TCRE * σ.G .cumulative_emissions t
  temperature_init : σ.G .temperature 0 = p.T0
  temperature_target : ∀ t ≤ p.tf, ∀ target, p.temperature_target = some target →
    p.year t ≥ 2100 → σ.G .temperature t ≤ target
  budget : ∀ t ≤ p.tf, ∀ budget, p.budget = some budget → p.year t ≥ 2100 →
    σ.G .cumulative_emissions t - (budget + (if p.perc_reversible_damages < 1 then
      σ.G .overshoot t * (1 - p.perc_reversible_damages) else 0)) ≤ 0
  cumulative_nonneg : ∀ t ≤ p.tf, 0 ≤ σ.G .cumulative_emissions t
  global_inertia : ∀ t < p.tf, ∀ i, p.inertia_global = some i →
    p.dt * i * (p.sumR fun r => p.baseline_emissions 0 r) ≤
      σ.G .global_emissions (t + 1) - σ.G .global_emissions t
  regional_inertia : ∀ t < p.tf, ∀ r ∈ p.regions, ∀ i, p.inertia_regional = some i →
    p.dt * i * p.baseline_emissions 0 r ≤
      σ.R .regional_emissions (t + 1) r - σ.R .regional_emissions t r
  global_min_level : ∀ t ≤ p.tf, ∀ l, p.global_min_level = some l → l ≤ σ.G .global_emissions t
  regional_min_level : ∀ t ≤ p.tf, ∀ r ∈ p.regions, ∀ l, p.regional_min_level = some l →
    l ≤ σ.R .regional_emissions t r
  non_increasing : ∀ t ≤ p.tf, ∀ r ∈ p.regions, p.year ((t : ℤ) - 1) > 2100 →
    p.non_increasing_emissions_after_2100 = true →
    σ.R .regional_emissions t r - σ.r .regional_emissions ((t : ℤ) - 1) r ≤ 0
  net_zero : ∀ t ≤ p.tf, p.year t ≥ 2100 → p.no_pos_emissions_after_budget_year = true →
    p.budget ≠ none → σ.G .global_emissions t ≤ 0

section
open Emissions

theorem emissions_rBaseline (t : ℕ) (r : String) : (rBaseline p t r).Sat σ ↔ σ.R .baseline t r =
    if p.use_carbon_intensity_for_baseline then p.baseline_carbon_intensity t r * σ.R .GDP_net t r
    else p.baseline_emissions t r := by
  unfold rBaseline; split <;> simp [holds_eq]

theorem emissions_rRegionalAbatement (t : ℕ) (r : String) : (rRegionalAbatement p t r).Sat σ ↔
    (t > 0 → σ.R .regional_emissions t r =
    (1 - σ.R .relative_abatement t r) *
      (if p.use_carbon_intensity_for_baseline then σ.R .baseline t r
       else p.baseline_emissions t r)) := by
  unfold rRegionalAbatement; split <;> simp [holds_eq]

theorem emissions_rCumulative (t : ℕ) : (rCumulative p t).Sat σ ↔
    (t > 0 → σ.G .cumulative_emissions t = σ.g .cumulative_emissions ((t : ℤ) - 1) +
    (if p.cumulative_emissions_trapz then
      p.dt * (σ.G .global_emissions t + σ.g .global_emissions ((t : ℤ) - 1)) / 2
     else p.dt * σ.G .global_emissions t)) := by
  unfold rCumulative; split <;> simp [holds_eq]

theorem emissions_rTemperatureTarget (t : ℕ) : (rTemperatureTarget p t).Sat σ ↔
    ∀ target, p.temperature_target = some target →
    p.year t ≥ 2100 → σ.G .temperature t ≤ target := by
  unfold rTemperatureTarget; split <;> simp_all [holds_le]

theorem emissions_rCarbonBudget (t : ℕ) : (rCarbonBudget p t).Sat σ ↔
    ∀ budget, p.budget = some budget → p.year t ≥ 2100 →
    σ.G .cumulative_emissions t - (budget + (if p.perc_reversible_damages < 1 then
      σ.G .overshoot t * (1 - p.perc_reversible_damages) else 0)) ≤ 0 := by
  unfold rCarbonBudget
  split
  · split <;> simp_all [holds_le]
  · simp_all

theorem emissions_rGlobalInertia (t : ℕ) : (rGlobalInertia p t).Sat σ ↔
    (t > 0 → ∀ i, p.inertia_global = some i →
    p.dt * i * (p.sumR fun r => p.baseline_emissions 0 r) ≤
      σ.G .global_emissions t - σ.g .global_emissions ((t : ℤ) - 1)) := by
  unfold rGlobalInertia; split <;> simp_all [holds_ge, Params.sumR]

theorem emissions_rRegionalInertia (t : ℕ) (r : String) : (rRegionalInertia p t r).Sat σ ↔
    (t > 0 → ∀ i, p.inertia_regional = some i →
    p.dt * i * p.baseline_emissions 0 r ≤
      σ.R .regional_emissions t r - σ.r .regional_emissions ((t : ℤ) - 1) r) := by
  unfold rRegionalInertia; split <;> simp_all [holds_ge]

theorem emissions_rGlobalMinLevel (t : ℕ) : (rGlobalMinLevel p t).Sat σ ↔
    ∀ l, p.global_min_level = some l → l ≤ σ.G .global_emissions t := by
  unfold rGlobalMinLevel; split <;> simp_all [holds_ge]

theorem emissions_rRegionalMinLevel (t : ℕ) (r : String) : (rRegionalMinLevel p t r).Sat σ ↔
    ∀ l, p.regional_min_level = some l → l ≤ σ.R .regional_emissions t r := by
  unfold rRegionalMinLevel; split <;> simp_all [holds_ge]

theorem emissions_iff : SatAll p σ Emissions.component.constraints ↔ EmissionsEqs p σ := by
  simp only [component, emissionsConstraints, temperatureConstraints, inertiaBudgetConstraints,
    satAll_append, satAll_cons, satAll_nil, and_true, sat_global, sat_globalInit, sat_regional,
    sat_regionalInit, emissions_rBaseline, emissions_rRegionalAbatement, emissions_rCumulative,
    emissions_rTemperatureTarget, emissions_rCarbonBudget, emissions_rGlobalInertia,
    emissions_rRegionalInertia, emissions_rGlobalMinLevel, emissions_rRegionalMinLevel,
    forall_pos_iff, forall_pos_iff', cast_succ_sub_one,
    rRegionalInit, rReduction, rGlobal, rGlobalInit, rCumulativeInit, rRelCumulative,
    rRelCumulativeInit, rTemperature, rTemperatureInit, rCumulativeNonneg, rNonIncreasing, rNetZero,
    RuleOut.sat_rel, RuleOut.sat_onlyIf, holds_eq, holds_le, holds_ge,
    eval_sumRegions, defined_sumRegions, Expr.eval_add, Expr.eval_sub, Expr.eval_mul, Expr.eval_div,
    Expr.eval_g, Expr.eval_r, Expr.eval_const, Expr.defined_add, Expr.defined_sub, Expr.defined_mul,
    Expr.defined_div, Expr.defined_g, Expr.defined_r, Expr.defined_const, true_and, imp_true_iff,
    and_imp]
  constructor
  · rintro ⟨⟨⟨h1, h2, h3, h4, h5, h6, h7, h8, h9, h10⟩, h11, h12, h13⟩, h14, h15, h16, h17, h18, h19,
      h20, h21⟩
    exact ⟨h1, h2, h3, h4, h5, h6, h7, h8, h9, h10, h11, h12, h13, h14, h15, h16, h17, h18, h19, h20,
      h21⟩
  · rintro ⟨h1, h2, h3, h4, h5, h6, h7, h8, h9, h10, h11, h12, h13, h14, h15, h16, h17, h18, h19, h20,
      h21⟩
    exact ⟨⟨⟨h1, h2, h3, h4, h5, h6, h7, h8, h9, h10⟩, h11, h12, h13⟩, h14, h15, h16, h17, h18, h19,
      h20, h21⟩
end


/-! ## Sea-level rise -/

/-- sealevelrise.py -/
structure SlrEqs : Prop where
  thermal : ∀ t < p.tf, σ.G .slr_thermal (t + 1) =
    (1 - SeaLevelRise.thermal_adjust_rate) ^ (p.dt / 10) * σ.G .slr_thermal t +
      SeaLevelRise.thermal_adjust_rate * (p.dt / 10) *
        (σ.G .temperature t * SeaLevelRise.thermal_equil)
  thermal_init : σ.G .slr_thermal 0 = SeaLevelRise.slr_thermal_expansion_init p.T0
  gsic : ∀ t < p.tf, σ.G .slr_cumgsic (t + 1) = σ.G .slr_cumgsic t +
    SeaLevelRise.gsic_melt_rate / SeaLevelRise.gsic_total_ice * p.dt *
      (SeaLevelRise.gsic_total_ice - σ.G .slr_cumgsic t) *
      (σ.G .temperature t - SeaLevelRise.gsic_equil_temp)
  gsic_init : σ.G .slr_cumgsic 0 = 0.015
  gis : ∀ t < p.tf, σ.G .slr_cumgis (t + 1) = σ.G .slr_cumgis t + p.dt / 10 * (1 / 100) *
    (SeaLevelRise.gis_melt_rate_above_thresh * σ.G .temperature t + SeaLevelRise.gis_init_melt_rate) *
      (1 - σ.G .slr_cumgis t / SeaLevelRise.gis_init_ice_vol)
  gis_init : σ.G .slr_cumgis 0 = 0.006
  total : ∀ t ≤ p.tf, σ.G .total_SLR t =
    σ.G .slr_thermal t + σ.G .slr_cumgsic t + σ.G .slr_cumgis t

section
open SeaLevelRise

theorem thermal_base_pos : 0 < 1 - thermal_adjust_rate := by unfold thermal_adjust_rate; norm_num

theorem slr_iff : SatAll p σ SeaLevelRise.component.constraints ↔ SlrEqs p σ := by
  have h0 : gis_init_ice_vol ≠ 0 := by unfold gis_init_ice_vol; norm_num
  have hp : ∀ x, Expr.PowOk (1 - thermal_adjust_rate) x := fun x => .of_pos thermal_base_pos
  simp only [component, satAll_cons, satAll_nil, and_true, sat_global, sat_globalInit,
    rThermal, rThermalInit, rGsic, rGsicInit, rGis, rGisInit, rTotal, slr_thermal_expansion, slr_gsic,
    slr_gis, RuleOut.sat_rel, RuleOut.sat_onlyIf, forall_pos_iff, holds_eq, cast_succ_sub_one,
    Expr.eval_add, Expr.eval_sub, Expr.eval_mul, Expr.eval_div, Expr.eval_lit, Expr.eval_pow,
    Expr.eval_g, Expr.eval_const, Expr.defined_add, Expr.defined_sub, Expr.defined_mul,
    Expr.defined_div, Expr.defined_g, Expr.defined_const, Expr.defined_lit, Expr.defined_pow,
    true_and, hp, h0, ne_eq, not_false_eq_true]
  constructor
  · rintro ⟨h1, h2, h3, h4, h5, h6, h7⟩; exact ⟨h1, h2, h3, h4, h5, h6, h7⟩
  · rintro ⟨h1, h2, h3, h4, h5, h6, h7⟩; exact ⟨h1, h2, h3, h4, h5, h6, h7⟩
end

/-! ## Damages -/

section
open Damages PyNum

/-- The value of a functional form (0 for an unknown one). [coacch.py:290-312] -/
noncomputable def formVal (x : ℝ) (d : DamageCoeffs) (r : String) : ℝ :=
  if strContains "Linear" (d.form r) then d.a r * d.b1 r * x / 100
  else if strContains "Quadratic" (d.form r) then d.a r * (d.b1 r * x + d.b2 r * x ^ 2) / 100
  else if strContains "Logistic" (d.form r) then
    d.a r * (d.b1 r / (1 + d.b2 r * Real.exp (soft_max (-(d.b3 r) * x) 10 (1 / 10))) -
      d.b1 r / (1 + d.b2 r)) / 100
  else 0

/-- The functional form is known and no division by zero happens at `x`. [coacch.py:290-325] -/
def FormOk (x : ℝ) (d : DamageCoeffs) (r : String) : Prop :=
  strContains "Linear" (d.form r) = true ∨ strContains "Quadratic" (d.form r) = true ∨
  (strContains "Logistic" (d.form r) = true ∧
    1 + d.b2 r * Real.exp (soft_max (-(d.b3 r) * x) 10 (1 / 10)) ≠ 0 ∧ 1 + d.b2 r ≠ 0)

theorem powOk_two (x : ℝ) : Expr.PowOk x 2 := by
  by_cases h : x = 0
  · exact Or.inr (Or.inl ⟨h, by norm_num⟩)
  · exact Or.inr (Or.inr ⟨h, 2, by norm_num⟩)

theorem functional_form_expr (e : Expr) (he : e.Defined σ) (d : DamageCoeffs) (r : String) :
    (∃ E, functional_form e d r = .ok E ∧ E.eval σ = formVal (e.eval σ) d r ∧
      (E.Defined σ ↔ FormOk (e.eval σ) d r)) ∨
    (functional_form e d r = .error .notImplemented ∧ ¬ FormOk (e.eval σ) d r) := by
  unfold functional_form formVal FormOk
  split
  · left; exact ⟨_, rfl, by simp, by simp_all⟩
  · split
    · left; refine ⟨_, rfl, by simp, ?_⟩
      simp_all [powOk_two]
    · split
      · left; exact ⟨_, rfl, by simp [logistic], by simp_all [logistic]⟩
      · right; simp_all

theorem functional_form_real (x : ℝ) (d : DamageCoeffs) (r : String) :
    functional_form x d r = if strContains "Linear" (d.form r) ∨ strContains "Quadratic" (d.form r) ∨
      strContains "Logistic" (d.form r) then .ok (formVal x d r) else .error .notImplemented := by
  unfold functional_form formVal
  by_cases h1 : strContains "Linear" (d.form r) = true
  · simp only [h1, true_or, if_true]; rfl
  · by_cases h2 : strContains "Quadratic" (d.form r) = true
    · simp only [h1, h2, true_or, or_true, if_true]
      rw [← Real.rpow_two]; rfl
    · by_cases h3 : strContains "Logistic" (d.form r) = true
      · simp only [h1, h2, h3, or_true, if_true]; rfl
      · simp [h1, h2, h3]

theorem damage_sat (x x0 : Expr) (hx : x.Defined σ) (hx0 : x0.Defined σ) (d : DamageCoeffs) (r : String)
    (v : RVar) (t : ℕ) (k : ℝ) :
    (ruleE (damage_fct x x0 d r) fun dam => rv v t r =ₚ num k * dam).Sat σ ↔
      FormOk (x.eval σ) d r ∧ FormOk (x0.eval σ) d r ∧
        σ.R v t r = k * (formVal (x.eval σ) d r - formVal (x0.eval σ) d r) := by
  rcases functional_form_expr σ x hx d r with ⟨E, h1, h2, h3⟩ | ⟨h1, h2⟩
  · rcases functional_form_expr σ x0 hx0 d r with ⟨E', h1', h2', h3'⟩ | ⟨h1', h2'⟩
    · simp [ruleE, damage_fct, h1, h1', holds_eq, h2, h2', h3, h3', and_assoc]
    · simp [ruleE, damage_fct, h1, h1', h2']
  · rcases functional_form_expr σ x0 hx0 d r with ⟨E', h1', h2', h3'⟩ | ⟨h1', h2'⟩
    · simp [ruleE, damage_fct, h1, h1', h2]
    · simp [ruleE, damage_fct, h1, h1', h2]

/-- damages/coacch.py -/
structure CoacchEqs : Prop where
  total : ∀ t ≤ p.tf, ∀ r ∈ p.regions,
    σ.R .damage_costs t r = σ.R .damage_costs_non_slr t r + σ.R .damage_costs_slr t r
  noslr : ∀ t ≤ p.tf, ∀ r ∈ p.regions, FormOk (σ.G .temperature t - 0.6) p.noslr r ∧
    FormOk (p.T0 - 0.6) p.noslr r ∧ σ.R .damage_costs_non_slr t r = p.damage_scale_factor *
      (formVal (σ.G .temperature t - 0.6) p.noslr r - formVal (p.T0 - 0.6) p.noslr r)
  slr : ∀ t ≤ p.tf, ∀ r ∈ p.regions, FormOk (σ.G .total_SLR t) p.slr r ∧
    FormOk (σ.G .total_SLR 0) p.slr r ∧ σ.R .damage_costs_slr t r = p.damage_scale_factor *
      (formVal (σ.G .total_SLR t) p.slr r - formVal (σ.G .total_SLR 0) p.slr r)
  mort_oldest : ∀ t ≤ p.tf, ∀ r ∈ p.regions, σ.R .mortality_oldest t r =
    p.mortality_oldest.a r + p.mortality_oldest.b r * σ.G .temperature t +
      p.mortality_oldest.c r * σ.G .temperature t ^ 2
  mort_older : ∀ t ≤ p.tf, ∀ r ∈ p.regions, σ.R .mortality_older t r =
    p.mortality_older.a r + p.mortality_older.b r * σ.G .temperature t +
      p.mortality_older.c r * σ.G .temperature t ^ 2
  mort_young : ∀ t ≤ p.tf, ∀ r ∈ p.regions, σ.R .mortality_young t r =
    p.mortality_young.a r + p.mortality_young.b r * σ.G .temperature t +
      p.mortality_young.c r * σ.G .temperature t ^ 2
  mort_cost : ∀ t ≤ p.tf, ∀ r ∈ p.regions, σ.R .mortality_cost_oldest t r =
    σ.R .mortality_oldest t r * p.population t r * 10000 * statistical_value_life_oldest

theorem coacch_iff : SatAll p σ Damages.coacch.constraints ↔ CoacchEqs p σ := by
  have hn : ∀ t r, (rNonSlr p t r).Sat σ ↔ FormOk (σ.G .temperature t - 0.6) p.noslr r ∧
    FormOk (p.T0 - 0.6) p.noslr r ∧ σ.R .damage_costs_non_slr t r = p.damage_scale_factor *
      (formVal (σ.G .temperature t - 0.6) p.noslr r - formVal (p.T0 - 0.6) p.noslr r) :=
    fun t r => damage_sat σ _ _ (by simp) (by simp) _ _ _ _ _
  have hs : ∀ t r, (rSlr p t r).Sat σ ↔ FormOk (σ.G .total_SLR t) p.slr r ∧
    FormOk (σ.G .total_SLR 0) p.slr r ∧ σ.R .damage_costs_slr t r = p.damage_scale_factor *
      (formVal (σ.G .total_SLR t) p.slr r - formVal (σ.G .total_SLR 0) p.slr r) :=
    fun t r => damage_sat σ _ _ (by simp) (by simp) _ _ _ _ _
  simp only [coacch, satAll_cons, satAll_nil, and_true, sat_regional, hn, hs, rDamageCosts,
    rMortOldest, rMortOlder, rMortYoung, rMortCost, mortalityRhs, RuleOut.sat_rel, holds_eq,
    Expr.eval_add, Expr.eval_mul, Expr.eval_pow, Expr.eval_g, Expr.eval_r, Expr.eval_const,
    Expr.defined_add, Expr.defined_mul, Expr.defined_pow, Expr.defined_g, Expr.defined_r,
    Expr.defined_const, powOk_two, true_and, Real.rpow_two]
  constructor
  · rintro ⟨h1, h2, h3, h4, h5, h6, h7⟩; exact ⟨h1, h2, h3, h4, h5, h6, h7⟩
  · rintro ⟨h1, h2, h3, h4, h5, h6, h7⟩; exact ⟨h1, h2, h3, h4, h5, h6, h7⟩

theorem nodamage_iff : SatAll p σ Damages.nodamage.constraints ↔
    ∀ t ≤ p.tf, ∀ r ∈ p.regions, σ.R .damage_costs t r = 0 := by
  simp [nodamage, sat_regional, rZero, holds_eq]
end

/-! ## Mitigation -/

section
open Mitigation PyNum

/-- The value of `m.import_export_mitigation_cost_balance[t, r]`.
[notrade.py:31, emissiontrade.py:84] -/
noncomputable def costBalanceVal (trade : TradeModule) (t : ℕ) (r : String) : ℝ :=
  match trade with
  | .notrade => 0
  | _ => σ.R .import_export_mitigation_cost_balance t r

/-- `MAC(a_{t,r})` at a solution [mitigation.py:412-414] -/
noncomputable def macVal (t : ℕ) (r : String) : ℝ :=
  σ.G .learning_factor t * p.MAC_scaling_factor r * p.MAC_gamma *
    σ.R .relative_abatement t r ^ p.MAC_beta
/-- `AC(a_{t,r})` at a solution [mitigation.py:417-419] -/
noncomputable def acVal (t : ℕ) (r : String) : ℝ :=
  σ.G .learning_factor t * p.MAC_scaling_factor r * p.MAC_gamma *
    σ.R .relative_abatement t r ^ (p.MAC_beta + 1) / (p.MAC_beta + 1)

/-- `AC` can be evaluated. [mitigation.py:417-419] -/
def AcOk (t : ℕ) (r : String) : Prop :=
  Expr.PowOk (σ.R .relative_abatement t r) (p.MAC_beta + 1) ∧ p.MAC_beta + 1 ≠ 0

theorem eval_mMAC (t : ℕ) (r : String) : (mMAC p t r).eval σ = macVal p σ t r := by
  simp [mMAC, MAC, macVal]
theorem eval_mAC (t : ℕ) (r : String) : (mAC p t r).eval σ = acVal p σ t r := by
  simp [mAC, AC, acVal]
theorem defined_mMAC (t : ℕ) (r : String) : (mMAC p t r).Defined σ ↔
    Expr.PowOk (σ.R .relative_abatement t r) p.MAC_beta := by
  simp [mMAC, MAC]
theorem defined_mAC (t : ℕ) (r : String) : (mAC p t r).Defined σ ↔ AcOk p σ t r := by
  simp [mAC, AC, AcOk]
theorem eval_costBalance (trade : TradeModule) (t : ℕ) (r : String) :
    (costBalance trade t r).eval σ = costBalanceVal σ trade t r := by
  cases trade <;> simp [costBalance, costBalanceVal]
theorem defined_costBalance (trade : TradeModule) (t : ℕ) (r : String) :
    (costBalance trade t r).Defined σ ↔ True := by
  cases trade <;> simp [costBalance]

/-- mitigation.py -/
structure MitigationEqs (trade : TradeModule) : Prop where
  carbonprice : ∀ t ≤ p.tf, ∀ r ∈ p.regions,
    Expr.PowOk (σ.R .relative_abatement t r) p.MAC_beta ∧ σ.R .carbonprice t r = macVal p σ t r
  carbonprice_init : ∀ r ∈ p.regions, σ.R .carbonprice 0 r = 0
  mitigation_costs : ∀ t ≤ p.tf, ∀ r ∈ p.regions, AcOk p σ t r ∧ σ.R .mitigation_costs t r =
    acVal p σ t r * σ.R .baseline t r + costBalanceVal σ trade t r
  area : ∀ t ≤ p.tf, ∀ r ∈ p.regions, AcOk p σ t r ∧ σ.R .area_under_MAC t r =
    acVal p σ t r * σ.R .baseline t r
  rel_costs : ∀ t ≤ p.tf, ∀ r ∈ p.regions, σ.R .GDP_gross t r ≠ 0 ∧
    σ.R .rel_mitigation_costs t r = σ.R .mitigation_costs t r / σ.R .GDP_gross t r
  rel_costs_min : ∀ t ≤ p.tf, ∀ r ∈ p.regions,
    (if t > 0 then p.rel_mitigation_costs_min_level else 0) ≤ σ.R .rel_mitigation_costs t r
  global_rel : ∀ t ≤ p.tf, p.sumR (fun r => σ.R .GDP_gross t r) ≠ 0 ∧
    σ.G .global_rel_mitigation_costs t =
      p.sumR (fun r => σ.R .mitigation_costs t r) / p.sumR (fun r => σ.R .GDP_gross t r)
  reduction_per_cost : ∀ t < p.tf, σ.G .global_emission_reduction_per_cost_unit (t + 1) =
    p.sumR (fun r => σ.R .regional_emission_reduction (t + 1) r) /
      soft_min (p.sumR fun r => σ.R .mitigation_costs (t + 1) r) 1
  cost_per_reduction : ∀ t < p.tf, σ.G .global_cost_per_emission_reduction_unit (t + 1) =
    p.sumR (fun r => σ.R .mitigation_costs (t + 1) r) /
      soft_min (p.sumR fun r => σ.R .regional_emission_reduction (t + 1) r) 1
  lbd : ∀ t ≤ p.tf, p.LBD_scaling ≠ 0 ∧ σ.G .LBD_factor t =
    soft_min ((p.cumulative_global_baseline_emissions t - σ.G .cumulative_emissions t) / p.LBD_scaling
      + 1) 1 ^ p.log_LBD_rate
  lot : ∀ t ≤ p.tf, Expr.PowOk (1 + p.LOT_rate) t ∧ (1 + p.LOT_rate) ^ (t : ℝ) ≠ 0 ∧
    σ.G .LOT_factor t = 1 / (1 + p.LOT_rate) ^ (t : ℝ)
  learning : ∀ t ≤ p.tf, σ.G .learning_factor t = σ.G .LBD_factor t * σ.G .LOT_factor t

theorem mitigation_iff (trade : TradeModule) :
    SatAll p σ (Mitigation.component trade).constraints ↔ MitigationEqs p σ trade := by
  have hpow : ∀ x y : ℝ, Expr.PowOk (soft_min x 1) y := fun x y => .of_pos (soft_min_pos_one x)
  have hne : ∀ x : ℝ, soft_min x 1 ≠ 0 := fun x => (soft_min_pos_one x).ne'
  simp only [component, macConstraints, learningConstraints, satAll_cons, satAll_append, satAll_nil,
    and_true, sat_global, sat_regional, sat_regionalInit, forall_pos_iff, forall_pos_iff',
    rCarbonprice, rInitCarbonprice, rMitigationCosts, rArea, rRelCosts, rRelCostsMin, rGlobalRel,
    rReductionPerCost, rCostPerReduction, rLBD, rLOT, rLearning,
    RuleOut.sat_rel, RuleOut.sat_onlyIf, holds_eq, holds_ge, eval_mMAC, eval_mAC, defined_mMAC,
    defined_mAC, eval_costBalance, defined_costBalance, eval_soft_min, defined_soft_min,
    eval_sumRegions, defined_sumRegions, Expr.eval_add, Expr.eval_sub, Expr.eval_mul, Expr.eval_div,
    Expr.eval_pow, Expr.defined_pow,
    Expr.eval_g, Expr.eval_r, Expr.eval_const, Expr.defined_add, Expr.defined_sub, Expr.defined_mul,
    Expr.defined_div, Expr.defined_g, Expr.defined_r, Expr.defined_const, true_and, imp_true_iff,
    hpow, hne, ne_eq, not_false_eq_true, Params.sumR, and_assoc]
  constructor
  · rintro ⟨h1, h2, h3, h4, h5, h6, h7, h8, h9, h10, h11, h12⟩
    exact ⟨h1, h2, h3, h4, h5, h6, h7, h8, h9, h10, h11, h12⟩
  · rintro ⟨h1, h2, h3, h4, h5, h6, h7, h8, h9, h10, h11, h12⟩
    exact ⟨h1, h2, h3, h4, h5, h6, h7, h8, h9, h10, h11, h12⟩
end

/-! ## Emission trade, transfers, effort sharing -/

section
open EmissionTrade

/-- emissiontrade/emissiontrade.py -/
structure TradeEqs : Prop where
  price : ∀ t ≤ p.tf, p.sumR (fun r => p.population t r) ≠ 0 ∧ σ.G .global_carbonprice t =
    p.sumR (fun r => σ.R .carbonprice t r * p.population t r) / p.sumR (fun r => p.population t r)
  zero_sum : ∀ t ≤ p.tf, p.sumR (fun r => σ.R .import_export_mitigation_cost_balance t r) = 0
  reduction_balance : ∀ t < p.tf, ∀ r ∈ p.regions,
    σ.R .import_export_emission_reduction_balance (t + 1) r =
      σ.R .import_export_mitigation_cost_balance (t + 1) r /
        soft_min (σ.G .global_carbonprice (t + 1)) 1
  paid : ∀ t < p.tf, ∀ r ∈ p.regions, σ.R .paid_for_emission_reductions (t + 1) r =
    σ.R .regional_emission_reduction (t + 1) r +
      σ.R .import_export_emission_reduction_balance (t + 1) r
  allowances : ∀ t < p.tf, ∀ r ∈ p.regions, σ.R .regional_emission_allowances (t + 1) r =
    σ.R .baseline (t + 1) r - σ.R .paid_for_emission_reductions (t + 1) r

theorem trade_iff : SatAll p σ EmissionTrade.emissiontrade.constraints ↔ TradeEqs p σ := by
  have hne : ∀ x : ℝ, soft_min x 1 ≠ 0 := fun x => (soft_min_pos_one x).ne'
  simp only [emissiontrade, satAll_cons, satAll_nil, and_true, sat_global, sat_regional,
    forall_pos_iff, forall_pos_iff', rGlobalCarbonprice, rSumBalance, rReductionBalance, rPaid,
    rAllowances, RuleOut.sat_rel, RuleOut.sat_onlyIf, holds_eq, eval_soft_min, defined_soft_min,
    eval_sumRegions, defined_sumRegions, Expr.eval_add, Expr.eval_sub, Expr.eval_mul, Expr.eval_div,
    Expr.eval_g, Expr.eval_r, Expr.eval_const, Expr.defined_add, Expr.defined_sub, Expr.defined_mul,
    Expr.defined_div, Expr.defined_g, Expr.defined_r, Expr.defined_const, true_and, imp_true_iff,
    hne, ne_eq, not_false_eq_true, Params.sumR]
  constructor
  · rintro ⟨h1, h2, h3, h4, h5⟩; exact ⟨h1, h2, h3, h4, h5⟩
  · rintro ⟨h1, h2, h3, h4, h5⟩; exact ⟨h1, h2, h3, h4, h5⟩
end

section
open FinTransfer

/-- The value of `m.financial_transfer[t, r]`. [notransfer.py:22, globaldamagepool.py:51] -/
noncomputable def transferVal (tm : TransferModule) (t : ℕ) (r : String) : ℝ :=
  match tm with
  | .notransfer => 0
  | .globaldamagepool => σ.R .financial_transfer t r
/-- The value of `m.rel_financial_transfer[t, r]`.
[notransfer.py:23, globaldamagepool.py:52] -/
noncomputable def relTransferVal (tm : TransferModule) (t : ℕ) (r : String) : ℝ :=
  match tm with
  | .notransfer => 0
  | .globaldamagepool => σ.R .rel_financial_transfer t r

theorem eval_transfer (tm : TransferModule) (t : ℕ) (r : String) :
    (transfer tm t r).eval σ = transferVal σ tm t r := by cases tm <;> simp [transfer, transferVal]
theorem defined_transfer (tm : TransferModule) (t : ℕ) (r : String) :
    (transfer tm t r).Defined σ ↔ True := by cases tm <;> simp [transfer]
theorem eval_relTransfer (tm : TransferModule) (t : ℕ) (r : String) :
    (relTransfer tm t r).eval σ = relTransferVal σ tm t r := by
  cases tm <;> simp [relTransfer, relTransferVal]
theorem defined_relTransfer (tm : TransferModule) (t : ℕ) (r : String) :
    (relTransfer tm t r).Defined σ ↔ True := by cases tm <;> simp [relTransfer]

/-- financialtransfer/globaldamagepool.py -/
structure PoolEqs : Prop where
  zero_sum : ∀ t < p.tf, p.sumR (fun r => σ.R .financial_transfer (t + 1) r) = 0
  first_year : ∀ r ∈ p.regions, σ.R .financial_transfer 0 r = 0
  max_own : ∀ t ≤ p.tf, ∀ r ∈ p.regions,
    -(σ.R .damage_costs t r) * σ.R .GDP_gross t r ≤ σ.R .financial_transfer t r
  rel : ∀ t ≤ p.tf, ∀ r ∈ p.regions,
    σ.R .rel_financial_transfer t r * σ.R .GDP_gross t r = σ.R .financial_transfer t r

theorem pool_iff : SatAll p σ FinTransfer.globaldamagepool.constraints ↔ PoolEqs p σ := by
  simp only [globaldamagepool, satAll_cons, satAll_nil, and_true, sat_global, sat_regional,
    sat_regionalInit, forall_pos_iff, rZeroSum, rFirstYear, rMaxOwn, rRel,
    RuleOut.sat_rel, RuleOut.sat_onlyIf, holds_eq, holds_ge,
    eval_sumRegions, defined_sumRegions, Expr.eval_neg, Expr.eval_mul,
    Expr.eval_r, Expr.eval_const, Expr.defined_neg, Expr.defined_mul,
    Expr.defined_r, Expr.defined_const, true_and, imp_true_iff, Params.sumR]
  constructor
  · rintro ⟨h1, h2, h3, h4⟩; exact ⟨h1, h2, h3, h4⟩
  · rintro ⟨h1, h2, h3, h4⟩; exact ⟨h1, h2, h3, h4⟩
end

section
open EffortSharing

/-- effortsharing.py -/
structure EffortEqs (tm : TransferModule) : Prop where
  mitigation : ∀ t ≤ p.tf, ∀ r ∈ p.regions, p.effort_sharing_regime = "equal_mitigation_costs" →
    σ.R .rel_mitigation_costs t r ≤ (1 + 0.005) * σ.G .effort_sharing_common_level t ∧
    (1 - 0.005) * σ.G .effort_sharing_common_level t ≤ σ.R .rel_mitigation_costs t r
  total : ∀ t ≤ p.tf, ∀ r ∈ p.regions, p.effort_sharing_regime = "equal_total_costs" →
    p.year t ≤ 2100 →
    σ.R .rel_mitigation_costs t r + σ.R .damage_costs t r + relTransferVal σ tm t r ≤
      (1 + 0.005) * σ.G .effort_sharing_common_level t ∧
    (1 - 0.005) * σ.G .effort_sharing_common_level t ≤
      σ.R .rel_mitigation_costs t r + σ.R .damage_costs t r + relTransferVal σ tm t r
  percap : ∀ t < p.tf, ∀ r ∈ p.regions, p.effort_sharing_regime = "per_cap_convergence" →
    p.percapconv_share (t + 1) r * σ.G .global_emissions (t + 1) ≤
      σ.R .regional_emission_allowances (t + 1) r + 0.001 ∧
    σ.R .regional_emission_allowances (t + 1) r - 0.001 ≤
      p.percapconv_share (t + 1) r * σ.G .global_emissions (t + 1)

theorem effort_iff (tm : TransferModule) :
    SatAll p σ (EffortSharing.component tm).constraints ↔ EffortEqs p σ tm := by
  simp only [component, equalMitigationCosts, equalTotalCosts, percapconv, satAll_cons, satAll_nil,
    and_true, sat_regionalSoft, rhs_eps, holds_le, holds_ge, if_true, Bool.false_eq_true, if_false,
    Option.getD_some, eval_relTransfer, defined_relTransfer,
    Expr.eval_add, Expr.eval_mul, Expr.eval_r, Expr.eval_g, Expr.eval_const, Expr.defined_add,
    Expr.defined_mul, Expr.defined_r, Expr.defined_g, Expr.defined_const, true_and,
    not_or, not_not, ne_eq, not_lt, gt_iff_lt, and_imp]
  constructor
  · rintro ⟨h1, h2, h3⟩
    refine ⟨fun t ht r hr hg => ?_, fun t ht r hr hg hy => ?_, fun t ht r hr hg => ?_⟩
    · have := h1 t ht r hr hg; constructor <;> linarith [this.1, this.2]
    · have := h2 t ht r hr hg hy; constructor <;> linarith [this.1, this.2]
    · have := h3 (t + 1) ht r hr hg (Nat.succ_ne_zero t); constructor <;> linarith [this.1, this.2]
  · rintro ⟨h1, h2, h3⟩
    refine ⟨fun t ht r hr hg => ?_, fun t ht r hr hg hy => ?_, fun t ht r hr hg h0 => ?_⟩
    · have := h1 t ht r hr hg; constructor <;> linarith [this.1, this.2]
    · have := h2 t ht r hr hg hy; constructor <;> linarith [this.1, this.2]
    · obtain ⟨s, rfl⟩ := Nat.exists_eq_succ_of_ne_zero h0
      have := h3 s ht r hr hg; constructor <;> linarith [this.1, this.2]
end

/-! ## Economy, welfare, objective -/

section
open CobbDouglas

/-- cobbdouglas.py -/
structure EconomyEqs (tm : TransferModule) : Prop where
  gross : ∀ t < p.tf, ∀ r ∈ p.regions, Expr.PowOk (p.population (t + 1) r) (1 - p.alpha) ∧
    σ.R .GDP_gross (t + 1) r = get_TFP_value p (t + 1) r * p.population (t + 1) r ^ (1 - p.alpha) *
      soft_min (σ.R .capital_stock (t + 1) r) 10 ^ p.alpha
  gross_init : ∀ r ∈ p.regions, σ.R .GDP_gross 0 r = p.baseline_GDP 0 r
  net : ∀ t ≤ p.tf, ∀ r ∈ p.regions, σ.R .GDP_net t r =
    σ.R .GDP_gross t r * (1 - (if p.ignore_damages then 0 else σ.R .damage_costs t r))
      - σ.R .mitigation_costs t r - transferVal σ tm t r
  investments : ∀ t ≤ p.tf, ∀ r ∈ p.regions, σ.R .investments t r = p.sr * σ.R .GDP_net t r
  consumption : ∀ t ≤ p.tf, ∀ r ∈ p.regions, σ.R .consumption t r = (1 - p.sr) * σ.R .GDP_net t r
  capital : ∀ t < p.tf, ∀ r ∈ p.regions, Expr.PowOk (1 - p.dk) p.dt ∧ p.dt ≠ 0 ∧
    σ.R .capital_stock (t + 1) r = σ.R .capital_stock t r + p.dt *
      (((1 - p.dk) ^ p.dt - 1) / p.dt * σ.R .capital_stock (t + 1) r + σ.R .investments (t + 1) r)
  capital_init : ∀ r ∈ p.regions,
    σ.R .capital_stock 0 r = p.init_capitalstock_factor r * p.baseline_GDP 0 r

theorem economy_iff (tm : TransferModule) :
    SatAll p σ (CobbDouglas.component tm).constraints ↔ EconomyEqs p σ tm := by
  have hpow : ∀ x y : ℝ, Expr.PowOk (soft_min x 10) y := fun x y => .of_pos (soft_min_pos_ten x)
  have hnet : ∀ t r, (rGDPnet tm p t r).Sat σ ↔ σ.R .GDP_net t r =
    σ.R .GDP_gross t r * (1 - (if p.ignore_damages then 0 else σ.R .damage_costs t r))
      - σ.R .mitigation_costs t r - transferVal σ tm t r := by
    intro t r
    unfold rGDPnet
    cases p.ignore_damages <;> simp [holds_eq, eval_transfer, defined_transfer]
  simp only [component, satAll_cons, satAll_nil, and_true, sat_global, sat_regional,
    sat_regionalInit, forall_pos_iff, forall_pos_iff', hnet, rGDPgross, rGDPgrossInit, rInvestments,
    rConsumption, rCapital, rCapitalInit, calc_GDP, calc_dKdt, cast_succ_sub_one,
    RuleOut.sat_rel, RuleOut.sat_onlyIf, holds_eq, eval_soft_min, defined_soft_min,
    Expr.eval_lit, Expr.defined_lit, Expr.eval_pow, Expr.defined_pow,
    Expr.eval_add, Expr.eval_sub, Expr.eval_mul, Expr.eval_div,
    Expr.eval_r, Expr.eval_const, Expr.defined_add, Expr.defined_sub, Expr.defined_mul,
    Expr.defined_div, Expr.defined_r, Expr.defined_const, true_and, hpow, ne_eq, and_assoc]
  constructor
  · rintro ⟨h1, h2, h3, h4, h5, h6, h7⟩; exact ⟨h1, h2, h3, h4, h5, h6, h7⟩
  · rintro ⟨h1, h2, h3, h4, h5, h6, h7⟩; exact ⟨h1, h2, h3, h4, h5, h6, h7⟩
end

section
open Welfare

/-- welfare/*.py -/
def WelfareEqs : WelfareModule → Prop
  | .welfare_loss_minimising =>
    (∀ t ≤ p.tf, ∀ r ∈ p.regions, p.population t r ≠ 0 ∧ 1 - p.elasmu ≠ 0 ∧
      σ.R .utility t r =
        (soft_min (σ.R .consumption t r / p.population t r) 1 ^ (1 - p.elasmu) - 1) / (1 - p.elasmu)) ∧
    ∀ t ≤ p.tf, σ.G .yearly_welfare t = p.sumR fun r => p.population t r * σ.R .utility t r
  | .cost_minimising =>
    (∀ t ≤ p.tf, ∀ r ∈ p.regions, p.population t r ≠ 0 ∧
      σ.R .utility t r = σ.R .consumption t r / p.population t r) ∧
    ∀ t ≤ p.tf, p.sumR (fun r => p.population t r) ≠ 0 ∧ 1 - p.elasmu ≠ 0 ∧
      σ.G .yearly_welfare t = p.sumR (fun r => p.population t r) *
        ((soft_min (p.sumR (fun r => σ.R .consumption t r) / p.sumR (fun r => p.population t r)) 1 ^
          (1 - p.elasmu) - 1) / (1 - p.elasmu))
  | .inequal_aversion_general =>
    (∀ t ≤ p.tf, ∀ r ∈ p.regions, p.population t r ≠ 0 ∧
      σ.R .utility t r = p.population t r *
        soft_min (σ.R .consumption t r / p.population t r) 1 ^ (1 - p.inequal_aversion)) ∧
    ∀ t ≤ p.tf, p.sumR (fun r => p.population t r) ≠ 0 ∧ 1 - p.inequal_aversion ≠ 0 ∧
      1 - p.elasmu ≠ 0 ∧
      σ.G .yearly_welfare t = p.sumR (fun r => p.population t r) *
        (soft_min (p.sumR (fun r => σ.R .utility t r) / p.sumR (fun r => p.population t r)) 1 ^
          ((1 - p.elasmu) / (1 - p.inequal_aversion)) / (1 - p.elasmu))

theorem welfare_iff (w : WelfareModule) :
    SatAll p σ (Welfare.component w).constraints ↔ WelfareEqs p σ w := by
  have hpow : ∀ x y : ℝ, Expr.PowOk (soft_min x 1) y := fun x y => .of_pos (soft_min_pos_one x)
  cases w <;>
  simp only [component, WelfareEqs, satAll_cons, satAll_nil, and_true, sat_global, sat_regional,
    rUtilityWL, rWelfareWL, rUtilityCM, rWelfareCM, rUtilityIA, rWelfareIA, sumPop, calc_utility,
    calc_regional_utility, calc_global_utility, RuleOut.sat_rel, holds_eq, eval_soft_min,
    defined_soft_min, eval_sumRegions, defined_sumRegions, Expr.eval_lit, Expr.defined_lit,
    Expr.eval_pow, Expr.defined_pow, Expr.eval_add, Expr.eval_sub, Expr.eval_mul, Expr.eval_div,
    Expr.eval_r, Expr.eval_g, Expr.eval_const, Expr.defined_add, Expr.defined_sub, Expr.defined_mul,
    Expr.defined_div, Expr.defined_r, Expr.defined_g, Expr.defined_const, true_and, imp_true_iff,
    hpow, ne_eq, and_assoc, Params.sumR]
end

section
open Objective

/-- objective/*.py -/
def ObjectiveEqs : ObjectiveModule → Prop
  | .utility => (∀ t < p.tf, σ.G .NPV (t + 1) = σ.G .NPV t +
      p.dt * discount p (t + 1) * σ.G .yearly_welfare (t + 1)) ∧ σ.G .NPV 0 = 0
  | .globalcosts => (∀ t < p.tf, σ.G .NPV (t + 1) = σ.G .NPV t +
      p.dt * discount p (t + 1) * (p.sumR (fun r => σ.R .mitigation_costs (t + 1) r) +
        p.sumR (fun r => σ.R .damage_costs (t + 1) r * σ.R .GDP_gross (t + 1) r))) ∧ σ.G .NPV 0 = 0

theorem objective_iff (o : ObjectiveModule) :
    SatAll p σ (Objective.component o).constraints ↔ ObjectiveEqs p σ o := by
  cases o <;>
  simp only [component, ObjectiveEqs, satAll_cons, satAll_nil, and_true, sat_global, sat_globalInit,
    rNPVutility, rNPVcosts, rNPVinit, forall_pos_iff, cast_succ_sub_one, RuleOut.sat_rel,
    RuleOut.sat_onlyIf, holds_eq, eval_sumRegions, defined_sumRegions, Expr.eval_add, Expr.eval_mul,
    Expr.eval_r, Expr.eval_g, Expr.eval_const, Expr.defined_add, Expr.defined_mul,
    Expr.defined_r, Expr.defined_g, Expr.defined_const, true_and, imp_true_iff,
    Params.sumR] <;> rfl
end

/-! ## All together -/

/-- The equations of the chosen damage module. [abstract_model.py:91-154 (damage module)] -/
def DamageEqs : DamageModule → Prop
  | .COACCH => CoacchEqs p σ
  | .nodamage => ∀ t ≤ p.tf, ∀ r ∈ p.regions, σ.R .damage_costs t r = 0

/-- The equations of the chosen trade module (`globalcostpool` cannot be built, see C19).
[abstract_model.py:91-154 (trade module)] -/
def TradeModuleEqs : TradeModule → Prop
  | .notrade => True
  | .emissiontrade => TradeEqs p σ
  | .globalcostpool => SatAll p σ EmissionTrade.globalcostpool.constraints

/-- abstract_model.py:91-154 (transfer module) -/
def TransferModuleEqs : TransferModule → Prop
  | .notransfer => True
  | .globaldamagepool => PoolEqs p σ

/-- abstract_model.py:91-163 -/
structure AllEqs (md : Modules) : Prop where
  emissions : EmissionsEqs p σ
  slr : SlrEqs p σ
  damages : DamageEqs p σ md.damage
  mitigation : MitigationEqs p σ md.trade
  trade : TradeModuleEqs p σ md.trade
  transfer : TransferModuleEqs p σ md.transfer
  effort : EffortEqs p σ md.transfer
  economy : EconomyEqs p σ md.transfer
  welfare : WelfareEqs p σ md.welfare
  objective : ObjectiveEqs p σ md.objective

theorem allEqs_iff (md : Modules) : SatAll p σ (allConstraints md) ↔ AllEqs p σ md := by
  have hd : SatAll p σ (damageComponent md.damage).constraints ↔ DamageEqs p σ md.damage := by
    cases md.damage
    · exact coacch_iff p σ
    · exact nodamage_iff p σ
  have ht : SatAll p σ (EmissionTrade.component md.trade).constraints ↔
      TradeModuleEqs p σ md.trade := by
    cases md.trade
    · simp [EmissionTrade.component, EmissionTrade.notrade, TradeModuleEqs]
    · exact Iff.rfl
    · exact trade_iff p σ
  have hf : SatAll p σ (FinTransfer.component md.transfer).constraints ↔
      TransferModuleEqs p σ md.transfer := by
    cases md.transfer
    · simp [FinTransfer.component, FinTransfer.notransfer, TransferModuleEqs]
    · exact pool_iff p σ
  simp only [allConstraints, components, List.flatMap_cons, List.flatMap_nil, List.append_nil,
    satAll_append, emissions_iff, slr_iff, hd, mitigation_iff, ht, hf, effort_iff, economy_iff,
    welfare_iff, objective_iff]
  constructor
  · rintro ⟨h1, h2, h3, h4, h5, h6, h7, h8, h9, h10⟩; exact ⟨h1, h2, h3, h4, h5, h6, h7, h8, h9, h10⟩
  · rintro ⟨h1, h2, h3, h4, h5, h6, h7, h8, h9, h10⟩; exact ⟨h1, h2, h3, h4, h5, h6, h7, h8, h9, h10⟩

variable {p σ} {md : Modules}
theorem Solution.eqs (h : Solution md p σ) : AllEqs p σ md := (allEqs_iff p σ md).1 h.satAll

end Mimosa
