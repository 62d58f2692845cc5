import Verif.Core.Params
import Verif.Config.Py

/-! # Constraint objects: `mimosa/common/pyomo_utils.py:83-219` -/

namespace Mimosa

/-- The outcome of calling a constraint rule: `Constraint.Skip`, a relation, or an exception.
[pyomo_utils.py:166-175 (`Constraint.Skip`); rules of all components] -/
inductive RuleOut
  | skip
  | rel (ρ : Rel)
  | raise (e : Err)

/-- `rel if cond else Constraint.Skip` [pyomo_utils.py:166-175] -/
noncomputable def RuleOut.onlyIf (c : Prop) (ρ : Rel) : RuleOut :=
  open Classical in if c then .rel ρ else .skip

/-- A Pyomo `Constraint` component: its index sets and rule
(pyomo_utils.py:102-119: over `m.t`, scalar, over `m.t × m.regions`, over `m.regions`). -/
inductive PyomoConstraint
  | overT (rule : Params → ℕ → RuleOut)
  | scalar (rule : Params → RuleOut)
  | overTR (rule : Params → ℕ → String → RuleOut)
  | overR (rule : Params → String → RuleOut)

/-- The constraint classes of MIMOSA. [pyomo_utils.py:83-201] -/
inductive GeneralConstraint
  /-- pyomo_utils.py:102-104 -/
  | global (rule : Params → ℕ → RuleOut) (name : Option String)
  /-- pyomo_utils.py:107-109 -/
  | globalInit (rule : Params → RuleOut) (name : Option String)
  /-- pyomo_utils.py:112-114 -/
  | regional (rule : Params → ℕ → String → RuleOut) (name : Option String)
  /-- pyomo_utils.py:117-119 -/
  | regionalInit (rule : Params → String → RuleOut) (name : Option String)
  /-- pyomo_utils.py:182-201 `RegionalSoftEqualityConstraint` (with `__init__` 122-151) -/
  | regionalSoft (rule_lhs rule_rhs : Params → ℕ → String → Expr) (name : String)
      (epsilon : Option ℝ) (absolute_epsilon : Option ℝ) (ignore_if : Params → ℕ → String → Prop)
  /-- pyomo_utils.py:160-179 `GlobalSoftEqualityConstraint` (currently unused by the components) -/
  | globalSoft (rule_lhs rule_rhs : Params → ℕ → Expr) (name : String)
      (epsilon : Option ℝ) (absolute_epsilon : Option ℝ) (ignore_if : Params → ℕ → Prop)

/-- pyomo_utils.py:153-157 `rhs_eps`.  (`epsilon=None` without `absolute_epsilon` would be a `TypeError`
in Python; no constraint does that, and here it is modelled as `eps = 0`.) -/
noncomputable def rhs_eps (epsilon absolute_epsilon : Option ℝ) (is_upper : Bool) (rhs : Expr) : Expr :=
  let factor : ℝ := if is_upper then 1 else -1
  match absolute_epsilon with
  | some ae => rhs + Expr.const (factor * ae)
  | none => Expr.const (1 + factor * (epsilon.getD 0)) * rhs

/-- `to_pyomo_constraint` together with the constraint's name(s), as `add_constraint` pairs them
(pyomo_utils.py:204-219; soft constraints have two components with names `{name}_upperbound`,
`{name}_lowerbound`, line 143). -/
noncomputable def GeneralConstraint.toPyomo : GeneralConstraint → List (Option String × PyomoConstraint)
  | .global rule name => [(name, .overT rule)]
  | .globalInit rule name => [(name, .scalar rule)]
  | .regional rule name => [(name, .overTR rule)]
  | .regionalInit rule name => [(name, .overR rule)]
  | .regionalSoft lhs rhs name eps aeps ign =>
    [(some (name ++ "_upperbound"), .overTR fun p t r =>
        .onlyIf (¬ ign p t r) (lhs p t r ≤ₚ rhs_eps eps aeps true (rhs p t r))),
     (some (name ++ "_lowerbound"), .overTR fun p t r =>
        .onlyIf (¬ ign p t r) (lhs p t r ≥ₚ rhs_eps eps aeps false (rhs p t r)))]
  | .globalSoft lhs rhs name eps aeps ign =>
    [(some (name ++ "_upperbound"), .overT fun p t =>
        .onlyIf (¬ ign p t) (lhs p t ≤ₚ rhs_eps eps aeps true (rhs p t))),
     (some (name ++ "_lowerbound"), .overT fun p t =>
        .onlyIf (¬ ign p t) (lhs p t ≥ₚ rhs_eps eps aeps false (rhs p t)))]

/-- All rule outcomes of a Pyomo constraint when the instance is created: one per element of its index
set. [pyomo_utils.py:102-119] -/
def PyomoConstraint.outcomes (p : Params) : PyomoConstraint → List RuleOut
  | .overT rule => (List.range (p.tf + 1)).map (rule p)
  | .scalar rule => [rule p]
  | .overTR rule => (List.range (p.tf + 1)).flatMap fun t => p.regions.map fun r => rule p t r
  | .overR rule => p.regions.map fun r => rule p r

/-- What a solution must satisfy at one index: a skipped index imposes nothing; a rule that raises makes
instance creation fail, so there is no solution.
[pyomo_utils.py:102-119 (Pyomo `Constraint`)] -/
def RuleOut.Sat (σ : Env) : RuleOut → Prop
  | .skip => True
  | .rel ρ => ρ.Holds σ
  | .raise _ => False

/-- A solution satisfies a constraint at all its indices.
[pyomo_utils.py:102-119 (Pyomo `Constraint`)] -/
def PyomoConstraint.Sat (p : Params) (σ : Env) (c : PyomoConstraint) : Prop :=
  ∀ o ∈ c.outcomes p, o.Sat σ

/-- A solution satisfies every Pyomo constraint that a general constraint stands for (pyomo_utils.py:85-272). -/
def GeneralConstraint.Sat (p : Params) (σ : Env) (c : GeneralConstraint) : Prop :=
  ∀ nc ∈ c.toPyomo, nc.2.Sat p σ

/-- A solution satisfies all constraints of a list (abstract_model.py:160-161 adds them one by one). -/
def SatAll (p : Params) (σ : Env) (cs : List GeneralConstraint) : Prop :=
  ∀ c ∈ cs, c.Sat p σ

/-! ## Unfolding lemmas -/

@[simp] theorem RuleOut.sat_skip (σ : Env) : RuleOut.skip.Sat σ ↔ True := Iff.rfl
@[simp] theorem RuleOut.sat_rel (σ : Env) (ρ : Rel) : (RuleOut.rel ρ).Sat σ ↔ ρ.Holds σ := Iff.rfl
@[simp] theorem RuleOut.sat_raise (σ : Env) (e : Err) : (RuleOut.raise e).Sat σ ↔ False := Iff.rfl
@[simp] theorem RuleOut.sat_onlyIf (σ : Env) (c : Prop) (ρ : Rel) :
    (RuleOut.onlyIf c ρ).Sat σ ↔ (c → ρ.Holds σ) := by
  unfold RuleOut.onlyIf; split <;> simp_all

variable (p : Params) (σ : Env)

theorem sat_global (rule : Params → ℕ → RuleOut) (n : Option String) :
    (GeneralConstraint.global rule n).Sat p σ ↔ ∀ t ≤ p.tf, (rule p t).Sat σ := by
  simp [GeneralConstraint.Sat, GeneralConstraint.toPyomo, PyomoConstraint.Sat, PyomoConstraint.outcomes]

theorem sat_globalInit (rule : Params → RuleOut) (n : Option String) :
    (GeneralConstraint.globalInit rule n).Sat p σ ↔ (rule p).Sat σ := by
  simp [GeneralConstraint.Sat, GeneralConstraint.toPyomo, PyomoConstraint.Sat, PyomoConstraint.outcomes]

theorem sat_regional (rule : Params → ℕ → String → RuleOut) (n : Option String) :
    (GeneralConstraint.regional rule n).Sat p σ ↔ ∀ t ≤ p.tf, ∀ r ∈ p.regions, (rule p t r).Sat σ := by
  simp only [GeneralConstraint.Sat, GeneralConstraint.toPyomo, PyomoConstraint.Sat,
    PyomoConstraint.outcomes]
  constructor
  · intro h t ht r hr
    exact h _ (List.mem_singleton.2 rfl) _ (List.mem_flatMap.2
      ⟨t, List.mem_range.2 (Nat.lt_succ_of_le ht), List.mem_map.2 ⟨r, hr, rfl⟩⟩)
  · intro h nc hnc o ho
    rw [List.mem_singleton] at hnc; subst hnc
    obtain ⟨t, ht, ho⟩ := List.mem_flatMap.1 ho
    obtain ⟨r, hr, rfl⟩ := List.mem_map.1 ho
    exact h t (Nat.lt_succ_iff.1 (List.mem_range.1 ht)) r hr

theorem sat_regionalInit (rule : Params → String → RuleOut) (n : Option String) :
    (GeneralConstraint.regionalInit rule n).Sat p σ ↔ ∀ r ∈ p.regions, (rule p r).Sat σ := by
  simp [GeneralConstraint.Sat, GeneralConstraint.toPyomo, PyomoConstraint.Sat, PyomoConstraint.outcomes]

theorem sat_regionalSoft (lhs rhs : Params → ℕ → String → Expr) (n : String) (e ae : Option ℝ)
    (ign : Params → ℕ → String → Prop) :
    (GeneralConstraint.regionalSoft lhs rhs n e ae ign).Sat p σ ↔
      ∀ t ≤ p.tf, ∀ r ∈ p.regions, ¬ ign p t r →
        (lhs p t r ≤ₚ rhs_eps e ae true (rhs p t r)).Holds σ ∧
        (lhs p t r ≥ₚ rhs_eps e ae false (rhs p t r)).Holds σ := by
  have h1 := sat_regional p σ (fun p t r =>
        .onlyIf (¬ ign p t r) (lhs p t r ≤ₚ rhs_eps e ae true (rhs p t r))) none
  have h2 := sat_regional p σ (fun p t r =>
        .onlyIf (¬ ign p t r) (lhs p t r ≥ₚ rhs_eps e ae false (rhs p t r))) none
  have : (GeneralConstraint.regionalSoft lhs rhs n e ae ign).Sat p σ ↔
      (GeneralConstraint.regional (fun p t r =>
        .onlyIf (¬ ign p t r) (lhs p t r ≤ₚ rhs_eps e ae true (rhs p t r))) none).Sat p σ ∧
      (GeneralConstraint.regional (fun p t r =>
        .onlyIf (¬ ign p t r) (lhs p t r ≥ₚ rhs_eps e ae false (rhs p t r))) none).Sat p σ := by
    simp only [GeneralConstraint.Sat, GeneralConstraint.toPyomo, List.mem_cons, List.not_mem_nil,
      or_false, forall_eq_or_imp, forall_eq]
  rw [this, h1, h2]
  simp only [RuleOut.sat_onlyIf]
  constructor
  · intro ⟨a, b⟩ t ht r hr hi; exact ⟨a t ht r hr hi, b t ht r hr hi⟩
  · intro h
    exact ⟨fun t ht r hr hi => (h t ht r hr hi).1, fun t ht r hr hi => (h t ht r hr hi).2⟩

@[simp] theorem satAll_nil : SatAll p σ [] ↔ True := by simp [SatAll]
@[simp] theorem satAll_cons (c : GeneralConstraint) (cs : List GeneralConstraint) :
    SatAll p σ (c :: cs) ↔ c.Sat p σ ∧ SatAll p σ cs := by simp [SatAll]
@[simp] theorem satAll_append (cs ds : List GeneralConstraint) :
    SatAll p σ (cs ++ ds) ↔ SatAll p σ cs ∧ SatAll p σ ds := by
  simp [SatAll, or_imp, forall_and]

end Mimosa
