import Mathlib.Analysis.SpecialFunctions.Pow.Real
import Mathlib.Analysis.SpecialFunctions.Trigonometric.Arctan

/-!
# Pyomo expressions and their real semantics

MIMOSA builds its equations from Pyomo variables (`Var`) and parameter values with Python operators.
The same Python helper functions (`soft_min`, `calc_GDP`, `MAC`, ...) are called on floats and on Pyomo
expressions; this duck typing is the type class `PyNum`, with one instance for `ℝ` and one for `Expr`.

Simplifications: floating point numbers are real numbers; Pyomo's constant folding and its unit objects are
not modelled (they do not change the value of an expression).
-/

namespace Mimosa

/-- The numeric operations Python code applies alike to floats and to Pyomo expressions
(operators `+ - * / **`, unary minus, and the wrappers `atan`, `exp` of
`mimosa/common/pyomo_utils.py:22-35`, which dispatch on the argument's type). -/
class PyNum (α : Type) extends Add α, Sub α, Mul α, Div α, Neg α where
  /-- a Python number literal or parameter value -/
  lit : ℝ → α
  /-- `x ** y` -/
  pow : α → α → α
  /-- `atan`, pyomo_utils.py:22-27 -/
  atan : α → α
  /-- `exp`, pyomo_utils.py:30-35 -/
  exp : α → α

/-- Python numbers, idealised as reals. -/
noncomputable instance : PyNum ℝ where
  lit x := x
  pow x y := x ^ y
  atan x := Real.arctan x
  exp x := Real.exp x

/-- Python's `sum(generator)`: starts at `0` and adds from the left.
[e.g. globaldamagepool.py:58] -/
def pySum {α : Type} [PyNum α] (l : List α) : α := l.foldl (· + ·) (PyNum.lit 0)

/-- All global (time-indexed) Pyomo variables of MIMOSA, `Var(m.t)`:
emissions.py:183-184,264,355; sealevelrise.py:103-122; mitigation.py:265,280,283,373,389,390;
emissiontrade.py:62 (`global_carbonprice`); effortsharing.py:59; welfare/*.py (`yearly_welfare`);
objective/*.py (`NPV`).  `overshoot` is used (emissions.py:530) although its declaration is commented out
(emissions.py:381); it is listed here so that the model can exhibit that use. -/
inductive GVar
  | cumulative_emissions | global_emissions | emission_relative_cumulative | temperature
  | slr_thermal | slr_cumgsic | slr_cumgis | total_SLR
  | global_rel_mitigation_costs | global_emission_reduction_per_cost_unit
  | global_cost_per_emission_reduction_unit | LBD_factor | LOT_factor | learning_factor
  | global_carbonprice | effort_sharing_common_level | yearly_welfare | NPV | overshoot
  deriving DecidableEq, Repr

/-- All regional (time- and region-indexed) Pyomo variables of MIMOSA, `Var(m.t, m.regions)`:
emissions.py:162-180; damages/coacch.py:46,65-67,94,149,232; damages/nodamage.py:27;
mitigation.py:196,219,225,231; emissiontrade/*.py; financialtransfer/globaldamagepool.py:51-52;
cobbdouglas.py:93,105,111,117,118; welfare/*.py (`utility`). -/
inductive RVar
  | regional_emissions | baseline | relative_abatement | regional_emission_reduction
  | damage_costs | damage_costs_non_slr | damage_costs_slr
  | mortality_oldest | mortality_older | mortality_young | mortality_cost_oldest
  | carbonprice | mitigation_costs | area_under_MAC | rel_mitigation_costs
  | paid_for_emission_reductions | regional_emission_allowances
  | import_export_emission_reduction_balance | import_export_mitigation_cost_balance
  | financial_transfer | rel_financial_transfer
  | capital_stock | GDP_gross | GDP_net | investments | consumption | utility
  deriving DecidableEq, Repr

/-- A Pyomo expression.  Indices are Python integers, so that `t - 1` at `t = 0` is `-1`.
[the arithmetic of all rules, e.g. coacch.py:290-325] -/
inductive Expr
  | const (x : ℝ)
  | g (v : GVar) (t : ℤ)
  | r (v : RVar) (t : ℤ) (reg : String)
  | add (a b : Expr) | sub (a b : Expr) | mul (a b : Expr) | div (a b : Expr)
  | neg (a : Expr) | pow (a b : Expr) | atan (a : Expr) | exp (a : Expr)

/-- Pyomo's operator overloading. -/
instance : PyNum Expr where
  add := .add
  sub := .sub
  mul := .mul
  div := .div
  neg := .neg
  lit := .const
  pow := .pow
  atan := .atan
  exp := .exp

/-- An assignment of values to all variables (a candidate solution).
[the values of the `Var`s, pyomo_utils.py:225-243] -/
structure Env where
  g : GVar → ℤ → ℝ
  r : RVar → ℤ → String → ℝ

namespace Expr

/-- The value of an expression. [Pyomo `value`, save.py:56-58] -/
noncomputable def eval (σ : Env) : Expr → ℝ
  | const x => x
  | g v t => σ.g v t
  | r v t reg => σ.r v t reg
  | add a b => a.eval σ + b.eval σ
  | sub a b => a.eval σ - b.eval σ
  | mul a b => a.eval σ * b.eval σ
  | div a b => a.eval σ / b.eval σ
  | neg a => -(a.eval σ)
  | pow a b => a.eval σ ^ b.eval σ
  | atan a => Real.arctan (a.eval σ)
  | exp a => Real.exp (a.eval σ)

/-- When a real power `b ** e` is defined: positive base, or zero base with non-negative exponent, or
integer exponent with non-zero base. [Pyomo `**`, e.g. coacch.py:306, mitigation.py:412-419] -/
def PowOk (b e : ℝ) : Prop := 0 < b ∨ (b = 0 ∧ 0 ≤ e) ∨ (b ≠ 0 ∧ ∃ n : ℤ, e = n)

/-- When an expression can be evaluated: no division by zero, no power outside its domain.  (Lean's
`x / 0 = 0` must never make a constraint true.) [Pyomo expressions, e.g. coacch.py:323-325] -/
def Defined (σ : Env) : Expr → Prop
  | const _ => True
  | g _ _ => True
  | r _ _ _ => True
  | add a b => a.Defined σ ∧ b.Defined σ
  | sub a b => a.Defined σ ∧ b.Defined σ
  | mul a b => a.Defined σ ∧ b.Defined σ
  | div a b => a.Defined σ ∧ b.Defined σ ∧ b.eval σ ≠ 0
  | neg a => a.Defined σ
  | pow a b => a.Defined σ ∧ b.Defined σ ∧ PowOk (a.eval σ) (b.eval σ)
  | atan a => a.Defined σ
  | exp a => a.Defined σ

/-- The variables (with index) an expression mentions.
[Pyomo expressions, e.g. coacch.py:270-277] -/
def gvars : Expr → List (GVar × ℤ)
  | const _ => []
  | g v t => [(v, t)]
  | r _ _ _ => []
  | add a b | sub a b | mul a b | div a b | pow a b => a.gvars ++ b.gvars
  | neg a | atan a | exp a => a.gvars

/-- The same for regional variables. [Pyomo expressions, e.g. coacch.py:270-277] -/
def rvars : Expr → List (RVar × ℤ × String)
  | const _ => []
  | g _ _ => []
  | r v t reg => [(v, t, reg)]
  | add a b | sub a b | mul a b | div a b | pow a b => a.rvars ++ b.rvars
  | neg a | atan a | exp a => a.rvars

end Expr

/-- `<=`, `>=`, `==` between Pyomo expressions. [e.g. set_constraints.py:71-106] -/
inductive Op | le | ge | eq
  deriving DecidableEq, Repr

/-- The relation a constraint rule returns. [pyomo_utils.py:102-119 (`rule=`)] -/
structure Rel where
  lhs : Expr
  op : Op
  rhs : Expr

/-- `a == b` on Pyomo expressions [e.g. coacch.py:272] -/
def Expr.peq (a b : Expr) : Rel := ⟨a, .eq, b⟩
/-- `a <= b` on Pyomo expressions [e.g. set_constraints.py:74-76] -/
def Expr.ple (a b : Expr) : Rel := ⟨a, .le, b⟩
/-- `a >= b` on Pyomo expressions [e.g. set_constraints.py:81-83] -/
def Expr.pge (a b : Expr) : Rel := ⟨a, .ge, b⟩

@[inherit_doc Expr.peq] infix:40 " =ₚ " => Expr.peq
@[inherit_doc Expr.ple] infix:40 " ≤ₚ " => Expr.ple
@[inherit_doc Expr.pge] infix:40 " ≥ₚ " => Expr.pge

namespace Rel

/-- Comparison of values. [e.g. set_constraints.py:71-106] -/
def cmp (o : Op) (x y : ℝ) : Prop :=
  match o with
  | .le => x ≤ y
  | .ge => x ≥ y
  | .eq => x = y

/-- A relation holds at an assignment: both sides can be evaluated and compare as required.
[Pyomo `Constraint`, pyomo_utils.py:102-119] -/
def Holds (σ : Env) (ρ : Rel) : Prop :=
  ρ.lhs.Defined σ ∧ ρ.rhs.Defined σ ∧ cmp ρ.op (ρ.lhs.eval σ) (ρ.rhs.eval σ)

end Rel

/-! ## `eval`/`Defined` through the overloaded operators -/

namespace Expr

section simps
variable (σ : Env) (a b : Expr) (x : ℝ)

@[simp] theorem eval_add : (a + b).eval σ = a.eval σ + b.eval σ := rfl
@[simp] theorem eval_sub : (a - b).eval σ = a.eval σ - b.eval σ := rfl
@[simp] theorem eval_mul : (a * b).eval σ = a.eval σ * b.eval σ := rfl
@[simp] theorem eval_div : (a / b).eval σ = a.eval σ / b.eval σ := rfl
@[simp] theorem eval_neg : (-a).eval σ = -(a.eval σ) := rfl
@[simp] theorem eval_lit : (PyNum.lit x : Expr).eval σ = x := rfl
@[simp] theorem eval_const : (Expr.const x).eval σ = x := rfl
@[simp] theorem eval_g (v : GVar) (t : ℤ) : (Expr.g v t).eval σ = σ.g v t := rfl
@[simp] theorem eval_r (v : RVar) (t : ℤ) (r : String) : (Expr.r v t r).eval σ = σ.r v t r := rfl
@[simp] theorem eval_pow : (PyNum.pow a b).eval σ = a.eval σ ^ b.eval σ := rfl
@[simp] theorem eval_atan : (PyNum.atan a).eval σ = Real.arctan (a.eval σ) := rfl
@[simp] theorem eval_exp : (PyNum.exp a).eval σ = Real.exp (a.eval σ) := rfl

@[simp] theorem defined_add : (a + b).Defined σ ↔ a.Defined σ ∧ b.Defined σ := Iff.rfl
@[simp] theorem defined_sub : (a - b).Defined σ ↔ a.Defined σ ∧ b.Defined σ := Iff.rfl
@[simp] theorem defined_mul : (a * b).Defined σ ↔ a.Defined σ ∧ b.Defined σ := Iff.rfl
@[simp] theorem defined_div : (a / b).Defined σ ↔ a.Defined σ ∧ b.Defined σ ∧ b.eval σ ≠ 0 := Iff.rfl
@[simp] theorem defined_neg : (-a).Defined σ ↔ a.Defined σ := Iff.rfl
@[simp] theorem defined_lit : (PyNum.lit x : Expr).Defined σ ↔ True := Iff.rfl
@[simp] theorem defined_const : (Expr.const x).Defined σ ↔ True := Iff.rfl
@[simp] theorem defined_g (v : GVar) (t : ℤ) : (Expr.g v t).Defined σ ↔ True := Iff.rfl
@[simp] theorem defined_r (v : RVar) (t : ℤ) (r : String) : (Expr.r v t r).Defined σ ↔ True := Iff.rfl
@[simp] theorem defined_pow : (PyNum.pow a b).Defined σ ↔
    a.Defined σ ∧ b.Defined σ ∧ PowOk (a.eval σ) (b.eval σ) := Iff.rfl
@[simp] theorem defined_atan : (PyNum.atan a).Defined σ ↔ a.Defined σ := Iff.rfl
@[simp] theorem defined_exp : (PyNum.exp a).Defined σ ↔ a.Defined σ := Iff.rfl

@[simp] theorem gvars_add : (a + b).gvars = a.gvars ++ b.gvars := rfl
@[simp] theorem gvars_sub : (a - b).gvars = a.gvars ++ b.gvars := rfl
@[simp] theorem gvars_mul : (a * b).gvars = a.gvars ++ b.gvars := rfl
@[simp] theorem gvars_div : (a / b).gvars = a.gvars ++ b.gvars := rfl
@[simp] theorem gvars_neg : (-a).gvars = a.gvars := rfl
@[simp] theorem gvars_lit : (PyNum.lit x : Expr).gvars = [] := rfl
@[simp] theorem gvars_const : (Expr.const x).gvars = [] := rfl
@[simp] theorem gvars_g (v : GVar) (t : ℤ) : (Expr.g v t).gvars = [(v, t)] := rfl
@[simp] theorem gvars_r (v : RVar) (t : ℤ) (r : String) : (Expr.r v t r).gvars = [] := rfl
@[simp] theorem gvars_pow : (PyNum.pow a b).gvars = a.gvars ++ b.gvars := rfl
@[simp] theorem gvars_atan : (PyNum.atan a).gvars = a.gvars := rfl
@[simp] theorem gvars_exp : (PyNum.exp a).gvars = a.gvars := rfl
@[simp] theorem rvars_add : (a + b).rvars = a.rvars ++ b.rvars := rfl
@[simp] theorem rvars_sub : (a - b).rvars = a.rvars ++ b.rvars := rfl
@[simp] theorem rvars_mul : (a * b).rvars = a.rvars ++ b.rvars := rfl
@[simp] theorem rvars_div : (a / b).rvars = a.rvars ++ b.rvars := rfl
@[simp] theorem rvars_neg : (-a).rvars = a.rvars := rfl
@[simp] theorem rvars_lit : (PyNum.lit x : Expr).rvars = [] := rfl
@[simp] theorem rvars_const : (Expr.const x).rvars = [] := rfl
@[simp] theorem rvars_g (v : GVar) (t : ℤ) : (Expr.g v t).rvars = [] := rfl
@[simp] theorem rvars_r (v : RVar) (t : ℤ) (r : String) : (Expr.r v t r).rvars = [(v, t, r)] := rfl
@[simp] theorem rvars_pow : (PyNum.pow a b).rvars = a.rvars ++ b.rvars := rfl
@[simp] theorem rvars_atan : (PyNum.atan a).rvars = a.rvars := rfl
@[simp] theorem rvars_exp : (PyNum.exp a).rvars = a.rvars := rfl
end simps

theorem eval_foldl (σ : Env) (l : List Expr) (z : Expr) :
    (l.foldl (· + ·) z).eval σ = z.eval σ + (l.map (eval σ)).sum := by
  induction l generalizing z with
  | nil => simp
  | cons a l ih => simp [ih, add_assoc]

@[simp] theorem eval_pySum (σ : Env) (l : List Expr) :
    (pySum l).eval σ = (l.map (eval σ)).sum := by
  simp [pySum, eval_foldl]

theorem defined_foldl (σ : Env) (l : List Expr) (z : Expr) :
    (l.foldl (· + ·) z).Defined σ ↔ z.Defined σ ∧ ∀ e ∈ l, e.Defined σ := by
  induction l generalizing z with
  | nil => simp
  | cons a l ih => simp [ih, and_assoc]

@[simp] theorem defined_pySum (σ : Env) (l : List Expr) :
    (pySum l).Defined σ ↔ ∀ e ∈ l, e.Defined σ := by
  simp [pySum, defined_foldl]

theorem mem_gvars_foldl (l : List Expr) (z : Expr) (p : GVar × ℤ) :
    p ∈ (l.foldl (· + ·) z).gvars ↔ p ∈ z.gvars ∨ ∃ e ∈ l, p ∈ e.gvars := by
  induction l generalizing z with
  | nil => simp
  | cons a l ih => simp [ih, or_assoc]

@[simp] theorem mem_gvars_pySum (l : List Expr) (p : GVar × ℤ) :
    p ∈ (pySum l).gvars ↔ ∃ e ∈ l, p ∈ e.gvars := by
  simp [pySum, mem_gvars_foldl]

theorem mem_rvars_foldl (l : List Expr) (z : Expr) (p : RVar × ℤ × String) :
    p ∈ (l.foldl (· + ·) z).rvars ↔ p ∈ z.rvars ∨ ∃ e ∈ l, p ∈ e.rvars := by
  induction l generalizing z with
  | nil => simp
  | cons a l ih => simp [ih, or_assoc]

@[simp] theorem mem_rvars_pySum (l : List Expr) (p : RVar × ℤ × String) :
    p ∈ (pySum l).rvars ↔ ∃ e ∈ l, p ∈ e.rvars := by
  simp [pySum, mem_rvars_foldl]

theorem foldl_add_real (l : List ℝ) (z : ℝ) : l.foldl (fun x y => x + y) z = z + l.sum := by
  induction l generalizing z with
  | nil => simp
  | cons a l ih => simp [ih, add_assoc]

@[simp] theorem pySum_real (l : List ℝ) : pySum l = l.sum := by
  have := foldl_add_real l 0
  rw [zero_add] at this
  exact this

theorem PowOk.of_pos {b e : ℝ} (h : 0 < b) : PowOk b e := Or.inl h
theorem PowOk.of_nonneg {b e : ℝ} (hb : 0 ≤ b) (he : 0 ≤ e) : PowOk b e := by
  rcases hb.lt_or_eq with h | h
  · exact Or.inl h
  · exact Or.inr (Or.inl ⟨h.symm, he⟩)

end Expr

namespace Rel
variable (σ : Env) (a b : Expr)
theorem holds_eq : (a =ₚ b).Holds σ ↔ a.Defined σ ∧ b.Defined σ ∧ a.eval σ = b.eval σ := Iff.rfl
theorem holds_le : (a ≤ₚ b).Holds σ ↔ a.Defined σ ∧ b.Defined σ ∧ a.eval σ ≤ b.eval σ := Iff.rfl
theorem holds_ge : (a ≥ₚ b).Holds σ ↔ a.Defined σ ∧ b.Defined σ ∧ b.eval σ ≤ a.eval σ := Iff.rfl
end Rel

end Mimosa
