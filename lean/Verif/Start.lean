import Verif.Presolve

/-!
# Starting values: the `initialize=` arguments of the variables and `contrib.init_vars_midpoint` (mimosa.py:119-139)

Simplification: time steps are integers here; starting values that depend on the time step are those of step `t.toNat`.
-/

namespace Mimosa

/-- The starting value with which a variable is declared; `none` if there is no `initialize=` argument.
[emissions.py:163-168, 173-179, 264, 355-357; mitigation.py:219-230; cobbdouglas.py:93-118; nodamage.py:27;
globaldamagepool.py:51-52; welfare_loss_minimising.py:56; cost_minimising.py:61; inequal_aversion_general.py:36] -/
noncomputable def initialValue (md : Modules) (p : Params) : Slot → Option ℝ
  | .g .emission_relative_cumulative _ => some 1
  | .g .temperature _ => some p.T0
  | .r .baseline t r => some (p.baseline_emissions t.toNat r)
  | .r .relative_abatement _ _ => some 0
  | .r .mitigation_costs _ _ => some 0
  | .r .area_under_MAC _ _ => some 0
  | .r .capital_stock t r => some (p.init_capitalstock_factor r * p.baseline_GDP t.toNat r)
  | .r .GDP_gross _ r => some (p.baseline_GDP 0 r)
  | .r .GDP_net _ r => some (p.baseline_GDP 0 r)
  | .r .utility _ _ => match md.welfare with
    | .welfare_loss_minimising => some (1 / 10)
    | .cost_minimising => some 10
    | .inequal_aversion_general => some 10
  | .r .damage_costs _ _ => match md.damage with
    | .nodamage => some 0
    | .COACCH => none
  | .r .financial_transfer _ _ => some 0
  | .r .rel_financial_transfer _ _ => some 0
  | _ => none

/-- Does the value lie within the bounds? [mimosa.py:129-132 (`contrib.aggregate_vars`)] -/
def BoundedSlot.Admits (b : BoundedSlot) (x : ℝ) : Prop := (∀ l ∈ b.lb, l ≤ x) ∧ ∀ u ∈ b.ub, x ≤ u

/-- The middle of the bounds; the only bound if there is one; otherwise zero.
[mimosa.py:133-135 (`contrib.init_vars_midpoint`)] -/
noncomputable def BoundedSlot.midpoint (b : BoundedSlot) : ℝ :=
  match b.lb, b.ub with
  | none, none => 0
  | none, some u => u
  | some l, none => l
  | some l, some u => (l + u) / 2

open Classical in
/-- The value of the variable that stands for a group: the average of the values of its members that lie within the
tightest bounds, if there are any; a variable that is not linked keeps its value.
[mimosa.py:129-132 (`contrib.aggregate_vars`)] -/
noncomputable def groupStart (slots : List BoundedSlot) (links : List (Slot × Slot)) (rep : Slot → Slot)
    (init : Slot → Option ℝ) (z : Slot) : Option ℝ :=
  if ∃ l ∈ links, rep l.1 = z then
    let vals := ((slots.filter fun b => rep b.slot = z).filterMap fun b => init b.slot).filter
      fun x => (groupVar slots rep z).Admits x
    if vals = [] then none else some (vals.sum / vals.length)
  else init z

/-- The starting value of a variable of the model that is sent to the solver. [mimosa.py:119-139] -/
noncomputable def startValue (md : Modules) (inst : AbstractModel.Instance) (s : SolverModel) (z : Slot) : ℝ :=
  match fixedAt s.fixed z with
  | some x => x
  | none =>
    match groupStart inst.slots (if inst.params.regions.length > 1 then inst.rels.filterMap Rel.link else []) s.rep
      (initialValue md inst.params) z with
    | some x => x
    | none => (groupVar inst.slots s.rep z).midpoint

/-- The point at which the solver starts. [mimosa.py:119-139, 189-191] -/
noncomputable def startPoint (md : Modules) (inst : AbstractModel.Instance) (s : SolverModel) : Env :=
  ⟨fun v t => startValue md inst s (.g v t), fun v t r => startValue md inst s (.r v t r)⟩

end Mimosa
