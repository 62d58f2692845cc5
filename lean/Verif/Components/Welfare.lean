import Verif.Core.Component
import Verif.Core.Modules

/-! # `mimosa/components/welfare/*.py` -/

namespace Mimosa.Welfare
open Mimosa RuleOut GeneralConstraint PyNum

section utils
variable {α : Type} [PyNum α]

/-- utility_fct.py:8-22 `calc_utility`. -/
noncomputable def calc_utility (consumption population : α) (elasmu : ℝ) : α :=
  (pow (soft_min (consumption / population)) (lit 1 - lit elasmu) - lit 1) / (lit 1 - lit elasmu)

/-- inequal_aversion_general.py:65-66 `calc_regional_utility`. -/
noncomputable def calc_regional_utility (consumption population : α) (inequal_aversion : ℝ) : α :=
  population * pow (soft_min (consumption / population)) (lit 1 - lit inequal_aversion)

/-- inequal_aversion_general.py:69-74 `calc_global_utility`. -/
noncomputable def calc_global_utility (sum_regional_utility global_population : α)
    (elasmu inequal_aversion : ℝ) : α :=
  pow (soft_min (sum_regional_utility / global_population))
      ((lit 1 - lit elasmu) / (lit 1 - lit inequal_aversion)) / (lit 1 - lit elasmu)

theorem calc_utility_real (c L e : ℝ) :
    calc_utility c L e = ((soft_min (c / L) 1) ^ (1 - e) - 1) / (1 - e) := rfl
theorem calc_regional_utility_real (c L i : ℝ) :
    calc_regional_utility c L i = L * (soft_min (c / L) 1) ^ (1 - i) := rfl
theorem calc_global_utility_real (s L e i : ℝ) :
    calc_global_utility s L e i = (soft_min (s / L) 1) ^ ((1 - e) / (1 - i)) / (1 - e) := rfl
end utils

/-- `sum(m.population[t, r] for r in m.regions)` [cost_minimising.py:73-76] -/
noncomputable def sumPop (p : Params) (t : ℕ) : Expr := sumRegions p fun r => num (p.population t r)

/-- welfare_loss_minimising.py:61-65, constraint `utility`. -/
noncomputable def rUtilityWL (p : Params) (t : ℕ) (r : String) : RuleOut :=
  .rel (rv .utility t r =ₚ calc_utility (rv .consumption t r) (num (p.population t r)) p.elasmu)
/-- welfare_loss_minimising.py:66-70, constraint `yearly_welfare`. -/
noncomputable def rWelfareWL (p : Params) (t : ℕ) : RuleOut :=
  .rel (gv .yearly_welfare t =ₚ sumRegions p fun r => num (p.population t r) * rv .utility t r)

/-- cost_minimising.py:66-70, constraint `utility`. -/
noncomputable def rUtilityCM (p : Params) (t : ℕ) (r : String) : RuleOut :=
  .rel (rv .utility t r =ₚ rv .consumption t r / num (p.population t r))
/-- cost_minimising.py:71-80, constraint `yearly_welfare`. -/
noncomputable def rWelfareCM (p : Params) (t : ℕ) : RuleOut :=
  .rel (gv .yearly_welfare t =ₚ sumPop p t *
    calc_utility (sumRegions p fun r => rv .consumption t r) (sumPop p t) p.elasmu)

/-- inequal_aversion_general.py:41-47, constraint `utility`. -/
noncomputable def rUtilityIA (p : Params) (t : ℕ) (r : String) : RuleOut :=
  .rel (rv .utility t r =ₚ
    calc_regional_utility (rv .consumption t r) (num (p.population t r)) p.inequal_aversion)
/-- inequal_aversion_general.py:48-58, constraint `yearly_welfare`. -/
noncomputable def rWelfareIA (p : Params) (t : ℕ) : RuleOut :=
  .rel (gv .yearly_welfare t =ₚ sumPop p t *
    calc_global_utility (sumRegions p fun r => rv .utility t r) (sumPop p t) p.elasmu
      p.inequal_aversion)

/-- The `get_constraints` of the three welfare modules: welfare_loss_minimising.py:18-74,
cost_minimising.py:19-84, inequal_aversion_general.py:19-62; selected by abstract_model.py:137-144. -/
noncomputable def component : WelfareModule → Component
  | .welfare_loss_minimising =>
    { vars := [ .regional .utility noBound noBound, .global .yearly_welfare noBound noBound ]
      params := [ ⟨"elasmu", .scalar, .str "::economics.elasmu"⟩ ]
      constraints := [ .regional rUtilityWL (some "utility"), .global rWelfareWL (some "yearly_welfare") ] }
  | .cost_minimising =>
    { vars := [ .regional .utility noBound noBound, .global .yearly_welfare noBound noBound ]
      params := [ ⟨"elasmu", .scalar, .str "::economics.elasmu"⟩ ]
      constraints := [ .regional rUtilityCM (some "utility"), .global rWelfareCM (some "yearly_welfare") ] }
  | .inequal_aversion_general =>
    { vars := [ .regional .utility noBound noBound, .global .yearly_welfare noBound noBound ]
      params :=
        [ ⟨"elasmu", .scalar, .str "::economics.elasmu"⟩,
          ⟨"inequal_aversion", .scalar, .str "::economics.inequal_aversion"⟩ ]
      constraints := [ .regional rUtilityIA (some "utility"), .global rWelfareIA (some "yearly_welfare") ] }

end Mimosa.Welfare
