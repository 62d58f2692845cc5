import Verif.Components.Emissions
import Verif.Components.SeaLevelRise
import Verif.Components.Damages
import Verif.Components.Mitigation
import Verif.Components.EmissionTrade
import Verif.Components.FinTransfer
import Verif.Components.EffortSharing
import Verif.Components.CobbDouglas
import Verif.Components.Welfare
import Verif.Components.Objective

/-!
# `mimosa/abstract_model.py` and the creation of a Pyomo instance

`createAbstractModel` builds the model from five module names; `AbstractModel.createInstance` models what
Pyomo's `create_instance` does with it: the parameter initialisers and then all constraint rules are
evaluated, and every use of an undeclared attribute or an index outside the index sets is an error.
-/

namespace Mimosa

/-- abstract_model.py:55-85: the parameters of the base model. -/
def baseParams : List ParamDecl :=
  [ ⟨"beginyear", .scalar, .none⟩, ⟨"dt", .scalar, .none⟩, ⟨"tf", .scalar, .none⟩,
    ⟨"year2100", .scalar, .none⟩,
    ⟨"population", .overTR, .str "timeandregional::population"⟩,
    ⟨"baseline_GDP", .overTR, .str "timeandregional::GDP"⟩,
    ⟨"baseline_emissions", .overTR, .str "timeandregional::emissions"⟩ ]

/-- abstract_model.py:98-103 -/
noncomputable def damageComponent : DamageModule → Component
  | .COACCH => Damages.coacch
  | .nodamage => Damages.nodamage

/-- abstract_model.py:91-154: all components, in the order in which they are added. -/
noncomputable def components (md : Modules) : List Component :=
  [ Emissions.component, SeaLevelRise.component, damageComponent md.damage,
    Mitigation.component md.trade, EmissionTrade.component md.trade,
    FinTransfer.component md.transfer, EffortSharing.component md.transfer,
    CobbDouglas.component md.transfer, Welfare.component md.welfare,
    Objective.component md.objective ]

/-- The constraint list of abstract_model.py:52-154. -/
noncomputable def allConstraints (md : Modules) : List GeneralConstraint :=
  (components md).flatMap (·.constraints)

/-- All `Var`s set on the model, in order (a later one with the same name replaces an earlier one).
[abstract_model.py:55-154] -/
noncomputable def allVars (md : Modules) : List VarDecl := (components md).flatMap (·.vars)

/-- All `Param`s set on the model. [abstract_model.py:55-154] -/
noncomputable def allParams (md : Modules) : List ParamDecl :=
  baseParams ++ (components md).flatMap (·.params)

/-- pyomo_utils.py:204-219 `add_constraint`, iterated (abstract_model.py:160-161): constraint number `i` is
added when the model has `count i` components.  `count` abstracts from how many components Pyomo counts;
adding a component increases it.  Returns the attribute names. -/
def constraintNames (count : ℕ → ℕ) (cs : List (Option String × PyomoConstraint)) : List String :=
  cs.zipIdx.map fun ((name, _), i) =>
    match name with
    | none => "constraint_" ++ toString (count i)
    | some s => "constraint_" ++ s

/-- What `create_abstract_model` returns. [abstract_model.py:27-165] -/
structure AbstractModel where
  vars : List VarDecl
  params : List ParamDecl
  constraints : List (String × PyomoConstraint)
  sense : Objective.Sense
  objective : Params → Expr

/-- abstract_model.py:47-165 for known module names.  Adding a second component with the same name is a
`RuntimeError` in Pyomo (`add_component`). -/
noncomputable def buildModel (count : ℕ → ℕ) (md : Modules) : Except Err AbstractModel :=
  let cs := (allConstraints md).flatMap GeneralConstraint.toPyomo
  let names := constraintNames count cs
  if names.Nodup then
    .ok { vars := allVars md
          params := allParams md
          constraints := names.zip (cs.map (·.2))
          sense := Objective.sense md.objective
          objective := Objective.objectiveExpr }
  else .error .runtimeError

/-- abstract_model.py:98-105 -/
def DamageModule.ofString (s : String) : Except Err DamageModule :=
  if s = "COACCH" then .ok .COACCH else if s = "nodamage" then .ok .nodamage else .error .notImplemented
/-- abstract_model.py:109-118 -/
def TradeModule.ofString (s : String) : Except Err TradeModule :=
  if s = "notrade" then .ok .notrade else if s = "globalcostpool" then .ok .globalcostpool
  else if s = "emissiontrade" then .ok .emissiontrade else .error .notImplemented
/-- abstract_model.py:121-128 -/
def TransferModule.ofString (s : String) : Except Err TransferModule :=
  if s = "notransfer" then .ok .notransfer else if s = "globaldamagepool" then .ok .globaldamagepool
  else .error .notImplemented
/-- abstract_model.py:137-144 -/
def WelfareModule.ofString (s : String) : Except Err WelfareModule :=
  if s = "welfare_loss_minimising" then .ok .welfare_loss_minimising
  else if s = "cost_minimising" then .ok .cost_minimising
  else if s = "inequal_aversion_general" then .ok .inequal_aversion_general
  else .error .notImplemented
/-- abstract_model.py:147-152 -/
def ObjectiveModule.ofString (s : String) : Except Err ObjectiveModule :=
  if s = "utility" then .ok .utility else if s = "globalcosts" then .ok .globalcosts
  else .error .notImplemented

/-- abstract_model.py:27-33 the five module names. -/
def Modules.ofStrings (damage trade transfer welfare objective : String) : Except Err Modules := do
  let d ← DamageModule.ofString damage
  let t ← TradeModule.ofString trade
  let f ← TransferModule.ofString transfer
  let w ← WelfareModule.ofString welfare
  let o ← ObjectiveModule.ofString objective
  return ⟨d, t, f, w, o⟩

/-- abstract_model.py:27-165 `create_abstract_model`. -/
noncomputable def createAbstractModel (count : ℕ → ℕ)
    (damage trade transfer welfare objective : String) : Except Err AbstractModel := do
  buildModel count (← Modules.ofStrings damage trade transfer welfare objective)

/-! ## Instance creation -/

namespace AbstractModel
variable (m : AbstractModel)

/-- `hasattr(m, v)` for a global variable.
[attribute access in rules, e.g. coacch.py:272-274] -/
def declG (v : GVar) : Bool := m.vars.any fun d => match d with
  | .global w _ _ => w == v
  | .regional _ _ _ => false
/-- `hasattr(m, v)` for a regional variable.
[attribute access in rules, e.g. coacch.py:272-274] -/
def declR (v : RVar) : Bool := m.vars.any fun d => match d with
  | .global _ _ _ => false
  | .regional w _ _ => w == v

/-- Evaluating an expression inside a rule, left to right: an attribute that was never declared is an
`AttributeError`, an index outside `m.t` (`× m.regions`) a `KeyError`.
[Pyomo indexing in rules, e.g. coacch.py:272-274; instantiate_params.py:36-52] -/
def checkExpr (p : Params) : Expr → Except Err Unit
  | .const _ => .ok ()
  | .g v t => if ! m.declG v then .error .attributeError
      else if 0 ≤ t ∧ t ≤ p.tf then .ok () else .error .keyError
  | .r v t r => if ! m.declR v then .error .attributeError
      else if (0 ≤ t ∧ t ≤ p.tf) ∧ r ∈ p.regions then .ok () else .error .keyError
  | .add a b | .sub a b | .mul a b | .div a b | .pow a b => do checkExpr p a; checkExpr p b
  | .neg a | .atan a | .exp a => checkExpr p a

/-- The check for one relation; a relation without any variable is a Python `bool`, which Pyomo rejects
with `ValueError`. [Pyomo `Constraint(rule=...)`, pyomo_utils.py:102-119] -/
def checkRel (p : Params) (ρ : Rel) : Except Err Unit := do
  m.checkExpr p ρ.lhs
  m.checkExpr p ρ.rhs
  if ρ.lhs.gvars ++ ρ.rhs.gvars = [] ∧ ρ.lhs.rvars ++ ρ.rhs.rvars = [] then .error .valueError
  else .ok ()

/-- The relations that the outcomes of a rule contribute to the instance.
[pyomo_utils.py:102-119] -/
def collect (p : Params) : List RuleOut → Except Err (List Rel)
  | [] => .ok []
  | .skip :: os => collect p os
  | .raise e :: _ => .error e
  | .rel ρ :: os => do
    m.checkRel p ρ
    let rest ← collect p os
    return ρ :: rest

/-- A concrete instance: variable bounds and active constraints.
[mimosa.py:104-108, instantiate_params.py:36-52] -/
structure Instance where
  params : Params
  vars : List VarDecl
  active : List (String × List Rel)
  sense : Objective.Sense
  objective : Expr

/-- The constraints of the instance, constraint by constraint. [abstract_model.py:160-161] -/
def collectAll (p : Params) : List (String × PyomoConstraint) → Except Err (List (String × List Rel))
  | [] => .ok []
  | (n, c) :: cs => do
    let rels ← m.collect p (c.outcomes p)
    let rest ← collectAll p cs
    return (n, rels) :: rest

open Classical in
/-- `m.create_instance(...)` (instantiate_params.py:62-70) as far as exceptions and the resulting set of
constraints are concerned: first the parameter initialisers, then the constraint rules. -/
noncomputable def createInstance (p : Params) : Except Err Instance :=
  if p.InitOk then
    match m.collectAll p m.constraints with
    | .error e => .error e
    | .ok act => .ok ⟨p, m.vars, act, m.sense, m.objective p⟩
  else .error .zeroDivision

end AbstractModel

/-- A feasible point of an instance: all variable bounds (of the last declaration of each variable; all
declarations are required here, which agrees except for `globalcostpool`) and all active constraints.
[what mimosa.py:189-191 asks the solver for] -/
def AbstractModel.Instance.Feasible (inst : AbstractModel.Instance) (σ : Env) : Prop :=
  (∀ d ∈ inst.vars, d.BoundsOk inst.params σ) ∧
  ∀ nr ∈ inst.active, ∀ ρ ∈ nr.2, ρ.Holds σ

/-- `σ` is a (feasible) solution that MIMOSA can return for modules `md` and parameter values `p`.
[mimosa.py:84-117, 150-217] -/
def Solution (md : Modules) (p : Params) (σ : Env) : Prop :=
  ∃ count : ℕ → ℕ, StrictMono count ∧ ∃ m inst, buildModel count md = .ok m ∧
    m.createInstance p = .ok inst ∧ inst.Feasible σ

/-- An optimal solution: feasible, and no feasible point has a better objective value.
[mimosa.py:150-217, utility.py:68, globalcosts.py:65] -/
def Optimal (md : Modules) (p : Params) (σ : Env) : Prop :=
  Solution md p σ ∧ ∀ τ, Solution md p τ →
    match Objective.sense md.objective with
    | .maximize => (Objective.objectiveExpr p).eval τ ≤ (Objective.objectiveExpr p).eval σ
    | .minimize => (Objective.objectiveExpr p).eval σ ≤ (Objective.objectiveExpr p).eval τ

/-! ## From a solution to its constraints -/

namespace AbstractModel
variable {m : AbstractModel} {p : Params}

theorem collect_ok_sat {os : List RuleOut} {rs : List Rel} (h : m.collect p os = .ok rs) (σ : Env) :
    (∀ ρ ∈ rs, ρ.Holds σ) ↔ ∀ o ∈ os, o.Sat σ := by
  induction os generalizing rs with
  | nil => simp only [collect, Except.ok.injEq] at h; subst h; simp
  | cons o os ih =>
    cases o with
    | skip => simp only [collect] at h; simp [ih h]
    | raise e => simp [collect] at h
    | rel ρ =>
      simp only [collect, bind, Except.bind] at h
      cases h1 : m.checkRel p ρ with
      | error e => simp [h1] at h
      | ok u =>
        cases h2 : m.collect p os with
        | error e => simp [h1, h2] at h
        | ok rest =>
          simp only [h1, h2, pure, Except.pure, Except.ok.injEq] at h
          subst h
          simp [ih h2]

theorem collectAll_ok_sat {cs : List (String × PyomoConstraint)} {act : List (String × List Rel)}
    (h : m.collectAll p cs = .ok act) (σ : Env) :
    (∀ nr ∈ act, ∀ ρ ∈ nr.2, ρ.Holds σ) ↔ ∀ nc ∈ cs, nc.2.Sat p σ := by
  induction cs generalizing act with
  | nil => simp only [collectAll, Except.ok.injEq] at h; subst h; simp
  | cons c cs ih =>
    obtain ⟨n, c⟩ := c
    simp only [collectAll, bind, Except.bind] at h
    cases h1 : m.collect p (c.outcomes p) with
    | error e => simp [h1] at h
    | ok rels =>
      cases h2 : m.collectAll p cs with
      | error e => simp [h1, h2] at h
      | ok rest =>
        simp only [h1, h2, pure, Except.pure, Except.ok.injEq] at h
        subst h
        rw [List.forall_mem_cons, List.forall_mem_cons, ih h2, collect_ok_sat h1 σ]
        rfl

/-- A rule outcome is acceptable when it does not raise and its relation passes the check.
[pyomo_utils.py:102-119] -/
def OutcomeOk (m : AbstractModel) (p : Params) : RuleOut → Prop
  | .skip => True
  | .raise _ => False
  | .rel ρ => m.checkRel p ρ = .ok ()

theorem collect_isOk {os : List RuleOut} :
    (∃ rs, m.collect p os = .ok rs) ↔ ∀ o ∈ os, OutcomeOk m p o := by
  induction os with
  | nil => simp [collect]
  | cons o os ih =>
    cases o with
    | skip => simp [collect, ih, OutcomeOk]
    | raise e => simp [collect, OutcomeOk]
    | rel ρ =>
      rw [List.forall_mem_cons, ← ih]
      simp only [collect, bind, Except.bind, OutcomeOk]
      cases h1 : m.checkRel p ρ with
      | error e => simp
      | ok u =>
        cases h2 : m.collect p os with
        | error e => simp
        | ok rest => simp [pure, Except.pure]

theorem collectAll_isOk {cs : List (String × PyomoConstraint)} :
    (∃ act, m.collectAll p cs = .ok act) ↔ ∀ nc ∈ cs, ∀ o ∈ nc.2.outcomes p, OutcomeOk m p o := by
  induction cs with
  | nil => simp [collectAll]
  | cons c cs ih =>
    obtain ⟨n, c⟩ := c
    rw [List.forall_mem_cons, ← ih, ← collect_isOk]
    simp only [collectAll, bind, Except.bind]
    cases h1 : m.collect p (c.outcomes p) with
    | error e => simp
    | ok rels =>
      cases h2 : m.collectAll p cs with
      | error e => simp
      | ok rest => simp [pure, Except.pure]

theorem createInstance_isOk : (∃ inst, m.createInstance p = .ok inst) ↔
    p.InitOk ∧ ∀ nc ∈ m.constraints, ∀ o ∈ nc.2.outcomes p, OutcomeOk m p o := by
  rw [← collectAll_isOk, createInstance]
  split
  · rename_i h
    cases h2 : m.collectAll p m.constraints with
    | error e => simp
    | ok act => simp [h]
  · rename_i h; simp [h]

end AbstractModel

theorem constraintNames_length (count : ℕ → ℕ) (cs : List (Option String × PyomoConstraint)) :
    (constraintNames count cs).length = cs.length := by simp [constraintNames]

theorem mem_zip_constraints (count : ℕ → ℕ) (cs : List (Option String × PyomoConstraint))
    (P : PyomoConstraint → Prop) :
    (∀ nc ∈ (constraintNames count cs).zip (cs.map (·.2)), P nc.2) ↔ ∀ nc ∈ cs, P nc.2 := by
  have hlen : (constraintNames count cs).length = (cs.map (·.2)).length := by
    simp [constraintNames_length]
  have : ((constraintNames count cs).zip (cs.map (·.2))).map (·.2) = cs.map (·.2) :=
    List.map_snd_zip (by omega)
  constructor
  · intro h nc hnc
    have : nc.2 ∈ ((constraintNames count cs).zip (cs.map (·.2))).map (·.2) := by
      rw [this]; exact List.mem_map_of_mem hnc
    obtain ⟨x, hx, he⟩ := List.mem_map.1 this
    exact he ▸ h x hx
  · intro h nc hnc
    have h2 : nc.2 ∈ cs.map (·.2) := by rw [← this]; exact List.mem_map_of_mem hnc
    obtain ⟨x, hx, he⟩ := List.mem_map.1 h2
    exact he ▸ h x hx

variable {md : Modules} {p : Params} {σ : Env}

/-- The feasible points of an instance in terms of the declarations of the components. -/
theorem instance_feasible {count : ℕ → ℕ} {m : AbstractModel} {inst : AbstractModel.Instance}
    (hb : buildModel count md = .ok m) (hi : m.createInstance p = .ok inst) :
    inst.Feasible σ ↔ (∀ d ∈ allVars md, d.BoundsOk p σ) ∧ SatAll p σ (allConstraints md) := by
  unfold buildModel at hb
  simp only at hb
  split at hb
  · simp only [Except.ok.injEq] at hb
    unfold AbstractModel.createInstance at hi
    split at hi
    · cases h2 : m.collectAll p m.constraints with
      | error e => simp [h2] at hi
      | ok act =>
        simp only [h2, Except.ok.injEq] at hi
        subst hi
        unfold AbstractModel.Instance.Feasible
        simp only
        rw [AbstractModel.collectAll_ok_sat h2 σ]
        subst hb
        simp only [mem_zip_constraints]
        refine and_congr_right fun _ => ?_
        simp only [SatAll, GeneralConstraint.Sat, List.mem_flatMap]
        constructor
        · intro h c hc nc hnc; exact h nc ⟨c, hc, hnc⟩
        · rintro h nc ⟨c, hc, hnc⟩; exact h c hc nc hnc
    · simp at hi
  · simp at hb

/-- What a solution is, unfolded: the model can be built, the instance can be created, and bounds and
constraints hold. -/
theorem solution_iff : Solution md p σ ↔
    ∃ count : ℕ → ℕ, StrictMono count ∧ ∃ m, buildModel count md = .ok m ∧
      (∃ inst, m.createInstance p = .ok inst) ∧
      (∀ d ∈ allVars md, d.BoundsOk p σ) ∧ SatAll p σ (allConstraints md) := by
  unfold Solution
  refine exists_congr fun count => and_congr_right fun _ => exists_congr fun m => ?_
  constructor
  · rintro ⟨inst, hb, hi, hf⟩
    exact ⟨hb, ⟨inst, hi⟩, (instance_feasible hb hi).1 hf⟩
  · rintro ⟨hb, ⟨inst, hi⟩, hf⟩
    exact ⟨inst, hb, hi, (instance_feasible hb hi).2 hf⟩

theorem Solution.satAll (h : Solution md p σ) : SatAll p σ (allConstraints md) := by
  obtain ⟨_, _, _, _, _, _, h⟩ := solution_iff.1 h; exact h
theorem Solution.bounds (h : Solution md p σ) : ∀ d ∈ allVars md, d.BoundsOk p σ := by
  obtain ⟨_, _, _, _, _, h, _⟩ := solution_iff.1 h; exact h
theorem Solution.initOk (h : Solution md p σ) : p.InitOk := by
  obtain ⟨_, _, _, _, h, _, _⟩ := solution_iff.1 h
  exact (AbstractModel.createInstance_isOk.1 h).1

end Mimosa
