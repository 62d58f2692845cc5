import Verif.Core.Constraint
import Verif.Config.NestedDict

/-!
# A component: what one `get_constraints(m)` call declares and returns

`get_constraints` adds `Var`s and `Param`s to the abstract model and returns a list of constraint objects.
-/

namespace Mimosa

/-- Declaration of a Pyomo variable: which variable and its bounds
(`bounds=` / `within=NonNegativeReals`; `none` = unbounded).
[Pyomo `Var(...)`, e.g. emissions.py:173-179, coacch.py:232-234] -/
inductive VarDecl
  | global (v : GVar) (lb ub : Params → Option ℝ)
  | regional (v : RVar) (lb ub : Params → Option ℝ)

/-- A Pyomo `Var` declared without `bounds` and without a restricting `within`.
[Pyomo `Var(...)`, e.g. globaldamagepool.py:51-52] -/
def noBound : Params → Option ℝ := fun _ => none

/-- The attribute name of a variable on the Pyomo model.
[pyomo_utils.py:238-243 (`getattr`), save.py:51] -/
def GVar.name : GVar → String
  | .cumulative_emissions => "cumulative_emissions"
  | .global_emissions => "global_emissions"
  | .emission_relative_cumulative => "emission_relative_cumulative"
  | .temperature => "temperature"
  | .slr_thermal => "slr_thermal"
  | .slr_cumgsic => "slr_cumgsic"
  | .slr_cumgis => "slr_cumgis"
  | .total_SLR => "total_SLR"
  | .global_rel_mitigation_costs => "global_rel_mitigation_costs"
  | .global_emission_reduction_per_cost_unit => "global_emission_reduction_per_cost_unit"
  | .global_cost_per_emission_reduction_unit => "global_cost_per_emission_reduction_unit"
  | .LBD_factor => "LBD_factor"
  | .LOT_factor => "LOT_factor"
  | .learning_factor => "learning_factor"
  | .global_carbonprice => "global_carbonprice"
  | .effort_sharing_common_level => "effort_sharing_common_level"
  | .yearly_welfare => "yearly_welfare"
  | .NPV => "NPV"
  | .overshoot => "overshoot"

/-- pyomo_utils.py:238-243 (`getattr`), save.py:51 -/
@[inherit_doc GVar.name]
def RVar.name : RVar → String
  | .regional_emissions => "regional_emissions"
  | .baseline => "baseline"
  | .relative_abatement => "relative_abatement"
  | .regional_emission_reduction => "regional_emission_reduction"
  | .damage_costs => "damage_costs"
  | .damage_costs_non_slr => "damage_costs_non_slr"
  | .damage_costs_slr => "damage_costs_slr"
  | .mortality_oldest => "mortality_oldest"
  | .mortality_older => "mortality_older"
  | .mortality_young => "mortality_young"
  | .mortality_cost_oldest => "mortality_cost_oldest"
  | .carbonprice => "carbonprice"
  | .mitigation_costs => "mitigation_costs"
  | .area_under_MAC => "area_under_MAC"
  | .rel_mitigation_costs => "rel_mitigation_costs"
  | .paid_for_emission_reductions => "paid_for_emission_reductions"
  | .regional_emission_allowances => "regional_emission_allowances"
  | .import_export_emission_reduction_balance => "import_export_emission_reduction_balance"
  | .import_export_mitigation_cost_balance => "import_export_mitigation_cost_balance"
  | .financial_transfer => "financial_transfer"
  | .rel_financial_transfer => "rel_financial_transfer"
  | .capital_stock => "capital_stock"
  | .GDP_gross => "GDP_gross"
  | .GDP_net => "GDP_net"
  | .investments => "investments"
  | .consumption => "consumption"
  | .utility => "utility"

/-- The attribute name of a declared variable on the Pyomo model.
[pyomo_utils.py:238-243, save.py:51] -/
def VarDecl.name : VarDecl → String
  | .global v _ _ => v.name
  | .regional v _ _ => v.name

/-- The index set of a Pyomo `Param`.
[Pyomo `Param(...)`, e.g. abstract_model.py:55-85, coacch.py:241-267] -/
inductive Dims | scalar | overT | overR | overTR
  deriving DecidableEq, Repr

/-- The `doc` of a Pyomo `Param` (instantiate_params.py:72-81): absent, a string, or a function of the
configuration that returns a string. -/
inductive ParamDoc
  | none
  | str (s : String)
  | fn (f : (Val → String) → Val → Except Err String)

/-- Declaration of a Pyomo `Param`: its attribute name, index set and `doc` (e.g. cobbdouglas.py:21-60). -/
structure ParamDecl where
  name : String
  dims : Dims
  doc : ParamDoc

/-- `doc` helper: `params[k1][k2]...` rendered with `str`, as an f-string does.
[coacch.py:163, 236-267] -/
def showNested (strOf : Val → String) (keys : List String) (params : Val) : Except Err String :=
  match getNested (keys.map Key.str) params with
  | .ok v => .ok (strOf v)
  | .error e => .error e

/-- What a component's `get_constraints(m)` does: it declares variables and parameters on `m` and returns constraints
(components/*.py; collected in abstract_model.py:92-154). -/
structure Component where
  vars : List VarDecl
  params : List ParamDecl
  constraints : List GeneralConstraint

/-- A component that calls helper functions with their own declarations (e.g. coacch.py:22-106). -/
def Component.append (a b : Component) : Component :=
  ⟨a.vars ++ b.vars, a.params ++ b.params, a.constraints ++ b.constraints⟩

/-- Notation for `Component.append`. -/
instance : Append Component := ⟨Component.append⟩

/-- The variable bounds hold (at all indices of the variable).
[Pyomo `bounds=`, e.g. coacch.py:232-234] -/
def VarDecl.BoundsOk (p : Params) (σ : Env) : VarDecl → Prop
  | .global v lb ub => ∀ t ≤ p.tf,
      (∀ b ∈ lb p, b ≤ σ.g v t) ∧ (∀ b ∈ ub p, σ.g v t ≤ b)
  | .regional v lb ub => ∀ t ≤ p.tf, ∀ r ∈ p.regions,
      (∀ b ∈ lb p, b ≤ σ.r v t r) ∧ (∀ b ∈ ub p, σ.r v t r ≤ b)

/-- Notation for variables inside rules: `m.x[t]`.
[used in all components, e.g. sealevelrise.py:103-122] -/
abbrev gv (v : GVar) (t : ℤ) : Expr := Expr.g v t
/-- Notation for variables inside rules: `m.x[t, r]`.
[used in all components, e.g. coacch.py:270-277] -/
abbrev rv (v : RVar) (t : ℤ) (r : String) : Expr := Expr.r v t r
/-- A number or parameter value inside a rule.
[used in all components, e.g. coacch.py:300-310] -/
abbrev num (x : ℝ) : Expr := Expr.const x

/-- `sum(f(r) for r in m.regions)` [e.g. emissiontrade.py:91, globaldamagepool.py:58] -/
def sumRegions (p : Params) (f : String → Expr) : Expr := pySum (p.regions.map f)

@[simp] theorem eval_sumRegions (σ : Env) (p : Params) (f : String → Expr) :
    (sumRegions p f).eval σ = (p.regions.map fun r => (f r).eval σ).sum := by
  simp [sumRegions, Function.comp_def]
@[simp] theorem defined_sumRegions (σ : Env) (p : Params) (f : String → Expr) :
    (sumRegions p f).Defined σ ↔ ∀ r ∈ p.regions, (f r).Defined σ := by
  simp [sumRegions]
@[simp] theorem mem_gvars_sumRegions (p : Params) (f : String → Expr) (x : GVar × ℤ) :
    x ∈ (sumRegions p f).gvars ↔ ∃ r ∈ p.regions, x ∈ (f r).gvars := by
  simp [sumRegions]
@[simp] theorem mem_rvars_sumRegions (p : Params) (f : String → Expr) (x : RVar × ℤ × String) :
    x ∈ (sumRegions p f).rvars ↔ ∃ r ∈ p.regions, x ∈ (f r).rvars := by
  simp [sumRegions]

end Mimosa
