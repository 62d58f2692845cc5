import Verif.Core.Component
import Verif.Core.Modules

/-! # `mimosa/components/objective/{utility,globalcosts}.py` -/

namespace Mimosa.Objective
open Mimosa RuleOut GeneralConstraint PyNum

/-- `exp(-m.PRTP * (m.year(t) - m.beginyear))`, utility.py:48, globalcosts.py:49 (a number). -/
noncomputable def discount (p : Params) (t : ℕ) : ℝ := Real.exp (-p.PRTP * (p.year t - p.beginyear))

/-- utility.py:43-54, constraint `NPV`. -/
noncomputable def rNPVutility (p : Params) (t : ℕ) : RuleOut :=
  .onlyIf (t > 0)
    (gv .NPV t =ₚ gv .NPV (t - 1) + num p.dt * num (discount p t) * gv .yearly_welfare t)

/-- globalcosts.py:44-60, constraint `NPV`. -/
noncomputable def rNPVcosts (p : Params) (t : ℕ) : RuleOut :=
  .onlyIf (t > 0)
    (gv .NPV t =ₚ gv .NPV (t - 1) + num p.dt * num (discount p t) *
      ((sumRegions p fun r => rv .mitigation_costs t r) +
        (sumRegions p fun r => rv .damage_costs t r * rv .GDP_gross t r)))

/-- utility.py:55, globalcosts.py:61 (unnamed). -/
noncomputable def rNPVinit (_ : Params) : RuleOut := .rel (gv .NPV 0 =ₚ num 0)

/-- `sense=` of the Pyomo `Objective`. [utility.py:68, globalcosts.py:65] -/
inductive Sense | minimize | maximize
  deriving DecidableEq, Repr

/-- utility.py:68 and globalcosts.py:65: the sense of the optimisation. -/
def sense : ObjectiveModule → Sense
  | .utility => .maximize
  | .globalcosts => .minimize

/-- utility.py:68 and globalcosts.py:65: the objective expression `m.NPV[m.tf]`. -/
def objectiveExpr (p : Params) : Expr := gv .NPV p.tf

/-- The `get_constraints` of utility.py:21-70 and globalcosts.py:22-67; selected by
abstract_model.py:147-152. -/
noncomputable def component : ObjectiveModule → Component
  | .utility =>
    { vars := [ .global .NPV noBound noBound ]
      params := [ ⟨"PRTP", .scalar, .str "::economics.PRTP"⟩ ]
      constraints := [ .global rNPVutility (some "NPV"), .globalInit rNPVinit none ] }
  | .globalcosts =>
    { vars := [ .global .NPV noBound noBound ]
      params := [ ⟨"PRTP", .scalar, .str "::economics.PRTP"⟩ ]
      constraints := [ .global rNPVcosts (some "NPV"), .globalInit rNPVinit none ] }

end Mimosa.Objective
