import Verif.Session

/-!
# Pre- and postprocessing of the concrete model: `mimosa/mimosa.py:116-147`

The steps are Pyomo's (`contrib.aggregate_vars`, `contrib.init_vars_midpoint`, `contrib.detect_fixed_vars`,
`contrib.propagate_fixed_vars`); MIMOSA decides which of them are applied, and when the values of aggregated variables are
restored.  They are modelled here by what they do to the set of constraints.  `contrib.aggregate_vars`

* collects the pairs of variables that an equality constraint of the form `x - y == 0` links;
* goes through the constraints once: if an equality constraint determines its only variable that is not fixed yet, the
  variable is fixed to that value and the constraint is deactivated (`detect_fixed_vars=True`, the default);
* replaces the variables of a linked group by one variable, whose bounds are the tightest of theirs, in all constraints
  and in the objective.  If some of them are fixed, the new variable is fixed too; `ValueError` if they are fixed to
  different values, or to a value outside the tightest bounds.

The bounds of a variable that is fixed are not sent to the solver.  `contrib.detect_fixed_vars` fixes a variable with equal
lower and upper bound to that value.

Simplifications: the new variable of a group is represented by one of its members; a constraint `x - y + 1 == 1` counts as
a link (Pyomo only looks at bodies without constant term); a power whose base is not fixed counts as nonlinear even if the
exponent is 1; an equality constraint all of whose coefficients are zero (for which Pyomo's generator raises
`StopIteration`) is left alone.  `propagate_fixed_vars` has nothing left to do once linked variables are one variable.
Starting values (`init_vars_midpoint`) are in `Start.lean`.
-/

namespace Mimosa

/-- One variable of the concrete model: `m.x[t]` or `m.x[t, r]`.
[Pyomo `Var(m.t[, m.regions])`, pyomo_utils.py:255-263] -/
inductive Slot
  | g (v : GVar) (t : ℤ)
  | r (v : RVar) (t : ℤ) (reg : String)
  deriving DecidableEq

/-- The value of a variable. [save.py:56-58] -/
def Env.get (σ : Env) : Slot → ℝ
  | .g v t => σ.g v t
  | .r v t reg => σ.r v t reg

/-- The assignment in which every variable has the value of its representative (Pyomo's `update_variables`, called in
mimosa.py:145-147). -/
def Env.restore (rep : Slot → Slot) (σ : Env) : Env :=
  ⟨fun v t => σ.get (rep (.g v t)), fun v t reg => σ.get (rep (.r v t reg))⟩

/-- The variable as an expression. [mimosa.py:129-132 (`contrib.aggregate_vars`)] -/
def Slot.expr : Slot → Expr
  | .g v t => .g v t
  | .r v t reg => .r v t reg

/-- Every variable replaced by its representative (Pyomo's expression visitor in `contrib.aggregate_vars`, mimosa.py:127). -/
def Expr.subst (rep : Slot → Slot) : Expr → Expr
  | .const x => .const x
  | .g v t => (rep (.g v t)).expr
  | .r v t reg => (rep (.r v t reg)).expr
  | .add a b => .add (a.subst rep) (b.subst rep)
  | .sub a b => .sub (a.subst rep) (b.subst rep)
  | .mul a b => .mul (a.subst rep) (b.subst rep)
  | .div a b => .div (a.subst rep) (b.subst rep)
  | .neg a => .neg (a.subst rep)
  | .pow a b => .pow (a.subst rep) (b.subst rep)
  | .atan a => .atan (a.subst rep)
  | .exp a => .exp (a.subst rep)

/-- mimosa.py:129-132 (`contrib.aggregate_vars`) -/
@[inherit_doc Expr.subst]
def Rel.subst (rep : Slot → Slot) (ρ : Rel) : Rel := ⟨ρ.lhs.subst rep, ρ.op, ρ.rhs.subst rep⟩

/-- A linear expression: constant and coefficients (Pyomo's `generate_standard_repn`).
[mimosa.py:129-132 (`contrib.aggregate_vars`)] -/
structure Affine where
  const : ℝ
  terms : List (Slot × ℝ)

namespace Affine

/-- The same expression times a number. [mimosa.py:129-132 (`contrib.aggregate_vars`)] -/
def scale (k : ℝ) (a : Affine) : Affine := ⟨k * a.const, a.terms.map fun x => (x.1, k * x.2)⟩

/-- The sum of two linear expressions. [mimosa.py:129-132 (`contrib.aggregate_vars`)] -/
def plus (a b : Affine) : Affine := ⟨a.const + b.const, a.terms ++ b.terms⟩

/-- The coefficient of a variable. [mimosa.py:129-132 (`contrib.aggregate_vars`)] -/
def coef (a : Affine) (s : Slot) : ℝ := ((a.terms.filter fun x => x.1 = s).map (·.2)).sum

open Classical in
/-- The variables with a coefficient other than zero.
[mimosa.py:129-132 (`contrib.aggregate_vars`)] -/
noncomputable def support (a : Affine) : List Slot := (a.terms.map (·.1)).dedup.filter fun s => a.coef s ≠ 0

end Affine

/-- The value to which a variable has been fixed. [mimosa.py:129-132 (`contrib.aggregate_vars`)] -/
def fixedAt (F : List (Slot × ℝ)) (s : Slot) : Option ℝ := (F.find? fun x => x.1 = s).map (·.2)

/-- The linear form of one variable: a constant if it is fixed. [mimosa.py:129-132 (`contrib.aggregate_vars`)] -/
def Slot.affine (F : List (Slot × ℝ)) (s : Slot) : Affine :=
  match fixedAt F s with
  | some x => ⟨x, []⟩
  | none => ⟨0, [(s, 1)]⟩

open Classical in
/-- The linear form of an expression of degree at most one; `none` for all others.  Fixed variables are constants.
[mimosa.py:129-132 (`contrib.aggregate_vars`)] -/
noncomputable def Expr.affine (F : List (Slot × ℝ)) : Expr → Option Affine
  | .const x => some ⟨x, []⟩
  | .g v t => some (Slot.affine F (.g v t))
  | .r v t reg => some (Slot.affine F (.r v t reg))
  | .add a b => do return (← a.affine F).plus (← b.affine F)
  | .sub a b => do return (← a.affine F).plus ((← b.affine F).scale (-1))
  | .neg a => do return (← a.affine F).scale (-1)
  | .mul a b => do
    let x ← a.affine F
    let y ← b.affine F
    if x.terms = [] then return y.scale x.const
    else if y.terms = [] then return x.scale y.const
    else none
  | .div a b => do
    let x ← a.affine F
    let y ← b.affine F
    if y.terms = [] ∧ y.const ≠ 0 then return x.scale (1 / y.const) else none
  | .pow a b => do
    let x ← a.affine F
    let y ← b.affine F
    if x.terms = [] ∧ y.terms = [] ∧ Expr.PowOk x.const y.const then return ⟨x.const ^ y.const, []⟩ else none
  | .atan a => do
    let x ← a.affine F
    if x.terms = [] then return ⟨Real.arctan x.const, []⟩ else none
  | .exp a => do
    let x ← a.affine F
    if x.terms = [] then return ⟨Real.exp x.const, []⟩ else none

open Classical in
/-- The two variables that an equality constraint `x - y == 0` links.
[mimosa.py:129-132 (`contrib.aggregate_vars`)] -/
noncomputable def Rel.link (ρ : Rel) : Option (Slot × Slot) :=
  if ρ.op = .eq then
    match (Expr.sub ρ.lhs ρ.rhs).affine [] with
    | none => none
    | some a =>
      if a.const = 0 then
        match a.support with
        | [x, y] => if (a.coef x = 1 ∧ a.coef y = -1) ∨ (a.coef x = -1 ∧ a.coef y = 1) then some (x, y) else none
        | _ => none
      else none
  else none

open Classical in
/-- The variable that an equality constraint determines, given the variables that are fixed already, and its value: the
constraint is `a x + b == 0` with `a` larger than Pyomo's tolerance.
[mimosa.py:129-132 (`contrib.aggregate_vars`, `detect_fixed_vars=True`)] -/
noncomputable def Rel.fixes (F : List (Slot × ℝ)) (ρ : Rel) : Option (Slot × ℝ) :=
  if ρ.op = .eq then
    match (Expr.sub ρ.lhs ρ.rhs).affine F with
    | none => none
    | some a =>
      match a.support with
      | [x] => if 1 / 10 ^ 10 < |a.coef x| then some (x, -a.const / a.coef x) else none
      | _ => none
  else none

/-- One pass over the constraints: the fixed variables, the last one first, and the constraints that stay active.
[mimosa.py:129-132 (`contrib.aggregate_vars`, `detect_fixed_vars=True`)] -/
noncomputable def fixPass (F : List (Slot × ℝ)) : List Rel → List (Slot × ℝ) × List Rel
  | [] => (F, [])
  | c :: cs =>
    match c.fixes F with
    | some x => fixPass (x :: F) cs
    | none => ((fixPass F cs).1, c :: (fixPass F cs).2)

/-- One more link: the group of `x` joins the group of `y`.
[mimosa.py:129-132 (`contrib.aggregate_vars`)] -/
def joinGroups (rep : Slot → Slot) (l : Slot × Slot) : Slot → Slot :=
  fun s => if rep s = rep l.1 then rep l.2 else rep s

/-- The representative of every variable after all links.
[mimosa.py:129-132 (`contrib.aggregate_vars`)] -/
def representatives (links : List (Slot × Slot)) : Slot → Slot := links.foldl joinGroups id

/-- The largest of the given lower bounds; none if there is none.
[mimosa.py:129-132 (`contrib.aggregate_vars`)] -/
noncomputable def tightestLower : List (Option ℝ) → Option ℝ
  | [] => none
  | none :: l => tightestLower l
  | some b :: l => match tightestLower l with
    | none => some b
    | some c => some (max b c)

/-- The smallest of the given upper bounds; none if there is none.
[mimosa.py:129-132 (`contrib.aggregate_vars`)] -/
noncomputable def tightestUpper : List (Option ℝ) → Option ℝ
  | [] => none
  | none :: l => tightestUpper l
  | some b :: l => match tightestUpper l with
    | none => some b
    | some c => some (min b c)

/-- A variable of the concrete model with its bounds. [mimosa.py:129-140] -/
structure BoundedSlot where
  slot : Slot
  lb : Option ℝ
  ub : Option ℝ

/-- The variables of a declaration, one per index. [mimosa.py:129-140] -/
def VarDecl.slots (p : Params) : VarDecl → List BoundedSlot
  | .global v lb ub => (List.range (p.tf + 1)).map fun (t : ℕ) => ⟨.g v t, lb p, ub p⟩
  | .regional v lb ub => (List.range (p.tf + 1)).flatMap fun (t : ℕ) => p.regions.map fun r => ⟨.r v t r, lb p, ub p⟩

/-- The model that is sent to the solver. [mimosa.py:119-140, 189-191] -/
structure SolverModel where
  /-- the variable that stands for each variable of the original model -/
  rep : Slot → Slot
  vars : List BoundedSlot
  /-- fixed variables and their values -/
  fixed : List (Slot × ℝ)
  active : List Rel
  sense : Objective.Sense
  objective : Expr

/-- All constraints of the instance. [mimosa.py:104-108] -/
def AbstractModel.Instance.rels (inst : AbstractModel.Instance) : List Rel := inst.active.flatMap (·.2)
/-- All variables of the instance, with bounds. [mimosa.py:104-108] -/
def AbstractModel.Instance.slots (inst : AbstractModel.Instance) : List BoundedSlot :=
  inst.vars.flatMap fun d => d.slots inst.params

/-- The variable that stands for a group, with the tightest bounds. [mimosa.py:129-132 (`contrib.aggregate_vars`)] -/
noncomputable def groupVar (slots : List BoundedSlot) (rep : Slot → Slot) (z : Slot) : BoundedSlot :=
  let group := slots.filter fun b => rep b.slot = z
  ⟨z, tightestLower (group.map (·.lb)), tightestUpper (group.map (·.ub))⟩

open Classical in
/-- Can the fixed variables be merged?  In a linked group all fixed values must be the same and within the tightest
bounds. [mimosa.py:129-132 (`contrib.aggregate_vars`)] -/
noncomputable def mergeable (slots : List BoundedSlot) (links : List (Slot × Slot)) (rep : Slot → Slot)
    (F : List (Slot × ℝ)) : Bool :=
  decide (∀ l ∈ links, ∀ x ∈ F, rep x.1 = rep l.1 →
    (∀ y ∈ F, rep y.1 = rep x.1 → y.2 = x.2) ∧
    (∀ b ∈ (groupVar slots rep (rep x.1)).lb, b ≤ x.2) ∧ ∀ b ∈ (groupVar slots rep (rep x.1)).ub, x.2 ≤ b)

/-- mimosa.py:129-132 `contrib.aggregate_vars`. -/
noncomputable def aggregateVars (inst : AbstractModel.Instance) : Except Err SolverModel :=
  let links := inst.rels.filterMap Rel.link
  let rep := representatives links
  let fixed := fixPass [] inst.rels
  if mergeable inst.slots links rep fixed.1 then .ok
    { rep := rep
      vars := ((inst.slots.map fun b => rep b.slot).dedup.filter fun z => !fixed.1.any fun x => rep x.1 = z).map
        (groupVar inst.slots rep)
      fixed := fixed.1.map fun x => (rep x.1, x.2)
      active := fixed.2.map (·.subst rep)
      sense := inst.sense
      objective := inst.objective.subst rep }
  else .error .valueError

/-- The instance as it is. [mimosa.py:189-191] -/
def sendAsIs (inst : AbstractModel.Instance) : SolverModel :=
  { rep := id, vars := inst.slots, fixed := [], active := inst.rels, sense := inst.sense, objective := inst.objective }

open Classical in
/-- mimosa.py:136 `contrib.detect_fixed_vars`: a variable with equal bounds is fixed to that value. -/
noncomputable def detectFixedVars (m : SolverModel) : SolverModel :=
  { m with fixed := m.fixed ++ m.vars.filterMap fun b => match b.lb, b.ub with
      | some l, some u => if l = u then some (b.slot, l) else none
      | _, _ => none }

/-- mimosa.py:119-139 `preprocessing`. -/
noncomputable def preprocessing (inst : AbstractModel.Instance) : Except Err SolverModel :=
  if inst.params.regions.length > 1 then
    match aggregateVars inst with
    | .ok m => .ok (detectFixedVars m)
    | .error e => .error e
  else .ok (detectFixedVars (sendAsIs inst))

/-- mimosa.py:141-147 `postprocessing`: what it does to the values of the variables. -/
def restoreValues (inst : AbstractModel.Instance) (m : SolverModel) (ρ : Env) : Env :=
  if inst.params.regions.length > 1 then ρ.restore m.rep else ρ

/-- A feasible point of the model that is sent to the solver. [mimosa.py:189-191] -/
structure SolverModel.Feasible (m : SolverModel) (ρ : Env) : Prop where
  fixed : ∀ x ∈ m.fixed, ρ.get x.1 = x.2
  lower : ∀ b ∈ m.vars, ∀ l ∈ b.lb, l ≤ ρ.get b.slot
  upper : ∀ b ∈ m.vars, ∀ u ∈ b.ub, ρ.get b.slot ≤ u
  constraints : ∀ c ∈ m.active, c.Holds ρ

/-- A point that the solver may return as optimal. [mimosa.py:189-191] -/
def SolverModel.Best (m : SolverModel) (ρ : Env) : Prop :=
  m.Feasible ρ ∧ ∀ ρ', m.Feasible ρ' → match m.sense with
    | .maximize => m.objective.eval ρ' ≤ m.objective.eval ρ
    | .minimize => m.objective.eval ρ ≤ m.objective.eval ρ'

end Mimosa
