import Verif.Core.Soft

/-!
# Parameter values of a concrete model instance

`Params` holds the values that `InstantiatedModel.get_param_values`
(`mimosa/concrete_model/instantiate_params.py:36-169`) hands to `create_instance`.
A Python parameter that is "`False` or a number" is an `Option ℝ` (`none` = `False`).
Parameters indexed by `m.t` are functions on `ℕ`; only indices `0..tf` are ever used.
-/

namespace Mimosa

/-- Coefficients of one COACCH damage function: `damage_noslr_*` (coacch.py:151-164) or
`damage_slr_*` (coacch.py:241-267).  `b2`, `b3` may be empty in the CSV file (then the value is a junk
number here; a theorem must not depend on it). -/
structure DamageCoeffs where
  form : String → String
  b1 : String → ℝ
  b2 : String → ℝ
  b3 : String → ℝ
  a : String → ℝ

/-- Quadratic coefficients of one mortality class, coacch.py:68-76. -/
structure MortalityCoeffs where
  a : String → ℝ
  b : String → ℝ
  c : String → ℝ

/-- The values of all Pyomo parameters of an instance (abstract_model.py:57-90 and the `Param`s of the components); each
field cites its declaration. -/
structure Params where
  /-- `m.regions`, abstract_model.py:64 -/
  regions : List String
  /-- `m.tf`, the last time index, abstract_model.py:59; `m.t = range(tf + 1)` -/
  tf : ℕ
  beginyear : ℝ
  dt : ℝ
  /-- `m.population`, `m.baseline_GDP`, `m.baseline_emissions`, abstract_model.py:70-87 -/
  population : ℕ → String → ℝ
  baseline_GDP : ℕ → String → ℝ
  baseline_emissions : ℕ → String → ℝ
  -- emissions.py
  use_carbon_intensity_for_baseline : Bool
  cumulative_emissions_trapz : Bool
  T0 : ℝ
  TCRE : ℝ
  temperature_target : Option ℝ
  perc_reversible_damages : ℝ
  budget : Option ℝ
  inertia_global : Option ℝ
  inertia_regional : Option ℝ
  global_min_level : Option ℝ
  regional_min_level : Option ℝ
  non_increasing_emissions_after_2100 : Bool
  no_pos_emissions_after_budget_year : Bool
  -- damages/coacch.py
  damage_scale_factor : ℝ
  noslr : DamageCoeffs
  slr : DamageCoeffs
  mortality_oldest : MortalityCoeffs
  mortality_older : MortalityCoeffs
  mortality_young : MortalityCoeffs
  -- mitigation.py
  MAC_gamma : ℝ
  MAC_beta : ℝ
  MAC_scaling_factor : String → ℝ
  rel_mitigation_costs_min_level : ℝ
  LBD_rate : ℝ
  LBD_scaling : ℝ
  LOT_rate : ℝ
  -- effortsharing.py
  effort_sharing_regime : String
  percapconv_year : Option ℝ
  -- cobbdouglas.py
  init_capitalstock_factor : String → ℝ
  alpha : ℝ
  dk : ℝ
  sr : ℝ
  ignore_damages : Bool
  -- welfare, objective
  elasmu : ℝ
  inequal_aversion : ℝ
  PRTP : ℝ

namespace Params
variable (p : Params)

/-- `m.year`, instantiate_params.py:66: `lambda t: t_start + t * dt` (a plain function, so also
defined for `t = -1`). -/
noncomputable def year (t : ℤ) : ℝ := p.beginyear + t * p.dt

/-- `np.trapz(values, years)`: `sum((x[i+1]-x[i]) * (y[i+1]+y[i]) / 2)`.
[emissions.py:56-60] -/
noncomputable def trapz : List ℝ → List ℝ → ℝ
  | y0 :: y1 :: ys, x0 :: x1 :: xs => (x1 - x0) * (y1 + y0) / 2 + trapz (y1 :: ys) (x1 :: xs)
  | _, _ => 0

/-- emissions.py:56-64 `_calc_cum_baseline_emissions`. -/
noncomputable def cumulative_baseline_emissions (t : ℕ) (r : String) : ℝ :=
  trapz ((List.range (t + 1)).map fun s => p.baseline_emissions s r)
    ((List.range (t + 1)).map fun s : ℕ => p.beginyear + (s : ℝ) * p.dt)

/-- emissions.py:67-72 `cumulative_global_baseline_emissions`. -/
noncomputable def cumulative_global_baseline_emissions (t : ℕ) : ℝ :=
  (p.regions.map fun r => p.cumulative_baseline_emissions t r).sum

/-- emissions.py:75-80 `baseline_carbon_intensity` (a `ZeroDivisionError` if the baseline GDP is 0, see
`InitOk`). -/
noncomputable def baseline_carbon_intensity (t : ℕ) (r : String) : ℝ :=
  p.baseline_emissions t r / p.baseline_GDP t r

/-- mitigation.py:371 `log_LBD_rate = log(m.LBD_rate) / log(2)`. -/
noncomputable def log_LBD_rate : ℝ := Real.log p.LBD_rate / Real.log 2

/-- effortsharing.py:210-214 `percapconv_share_init`. -/
noncomputable def percapconv_share_init (r : String) : ℝ :=
  p.baseline_emissions 0 r / (p.regions.map fun s => p.baseline_emissions 0 s).sum

/-- effortsharing.py:216-221 `percapconv_share_pop`. -/
noncomputable def percapconv_share_pop (t : ℕ) (r : String) : ℝ :=
  p.population t r / (p.regions.map fun s => p.population t s).sum

/-- The number Pyomo arithmetic uses for `m.percapconv_year`: Python's `False` counts as `0`.
[effortsharing.py:215, 262] -/
def percapconv_year_num : ℝ := p.percapconv_year.getD 0

open Classical in
/-- effortsharing.py:239-276 `percapconv_share_rule`.  `year_conv` is the Pyomo `Param` object, so the
test `year_conv is False` (line 264) is never true; that branch is unreachable and with
`percapconv_year = False` the arithmetic below uses `0`. -/
noncomputable def percapconv_share (t : ℕ) (r : String) : ℝ :=
  let year_0 := p.year 0
  let year_t := p.year t
  let year_conv := p.percapconv_year_num
  if year_conv = year_0 then p.percapconv_share_pop t r
  else
    let year_linear_part := (year_t - year_0) / (year_conv - year_0)
    min year_linear_part 1 * p.percapconv_share_pop t r
      + max (1 - year_linear_part) 0 * p.percapconv_share_init r

end Params

/-! ## `mimosa/common/economics.py` -/

section economics
variable {α : Type} [PyNum α]
open PyNum

/-- economics.py:33-37 `calc_dKdt`: `((1 - dk) ** dt - 1) / dt * K + I`.  `dk`, `dt` are numbers. -/
noncomputable def calc_dKdt (K : α) (dk : ℝ) (I : α) (dt : ℝ) : α :=
  ((pow (lit (1 : ℝ) - lit dk) (lit dt) - lit 1) / lit dt) * K + I

/-- economics.py:40-47 `calc_GDP`: `TFP * L ** (1 - alpha) * K**alpha`. -/
noncomputable def calc_GDP (TFP L K : α) (alpha : ℝ) : α :=
  TFP * pow L (lit 1 - lit alpha) * pow K (lit alpha)

theorem calc_dKdt_real (K dk I dt : ℝ) :
    calc_dKdt K dk I dt = ((1 - dk) ^ dt - 1) / dt * K + I := rfl
theorem calc_GDP_real (T L K al : ℝ) : calc_GDP T L K al = T * L ^ (1 - al) * K ^ al := rfl

/-- The loop of economics.py:15-24 in `get_TFP_value`: the calibrated capital stock after step `t`
(`s = 0`: initial capital; `s > 0`: stock growth with the *previous* capital and the investments of the
*previous* baseline GDP). -/
noncomputable def calibCapital (p : Params) (r : String) : ℕ → ℝ
  | 0 => p.init_capitalstock_factor r * p.baseline_GDP 0 r
  | s + 1 =>
    let capital := calibCapital p r s
    let investments := p.sr * p.baseline_GDP s r
    let dKdt := calc_dKdt capital p.dk investments p.dt
    dKdt * p.dt + capital

/-- economics.py:7-30 `get_TFP_value`. -/
noncomputable def get_TFP_value (p : Params) (t : ℕ) (r : String) : ℝ :=
  p.baseline_GDP t r / calc_GDP 1 (p.population t r) (calibCapital p r t) p.alpha

end economics

/-- Conditions under which the parameter initialisers (which Pyomo evaluates eagerly for every index when
the instance is created) run without `ZeroDivisionError`/domain error:
emissions.py:78 (carbon intensity), mitigation.py:371 (log), effortsharing.py:212-221,271 (shares),
economics.py:28,37 (TFP).  Without them `create_instance` raises and there is no model to solve. -/
structure Params.InitOk (p : Params) : Prop where
  gdp_ne : ∀ t ≤ p.tf, ∀ r ∈ p.regions, p.baseline_GDP t r ≠ 0
  lbd_pos : 0 < p.LBD_rate
  sum_emissions_ne : p.regions ≠ [] → (p.regions.map fun s => p.baseline_emissions 0 s).sum ≠ 0
  sum_population_ne : ∀ t ≤ p.tf, p.regions ≠ [] → (p.regions.map fun s => p.population t s).sum ≠ 0
  dt_ne : p.dt ≠ 0
  dk_pow : Expr.PowOk (1 - p.dk) p.dt
  pop_pow : ∀ t ≤ p.tf, ∀ r ∈ p.regions, Expr.PowOk (p.population t r) (1 - p.alpha)
  cap_pow : ∀ t ≤ p.tf, ∀ r ∈ p.regions, Expr.PowOk (calibCapital p r t) p.alpha
  tfp_ne : ∀ t ≤ p.tf, ∀ r ∈ p.regions,
    calc_GDP 1 (p.population t r) (calibCapital p r t) p.alpha ≠ 0

end Mimosa
