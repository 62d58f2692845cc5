import Verif.Core.Component

/-! # `mimosa/components/damages/coacch.py` and `mimosa/components/damages/nodamage.py` -/

namespace Mimosa.Damages
open Mimosa RuleOut GeneralConstraint PyNum

/-- Python's `needle in haystack` on strings. [coacch.py:301, 305, 309] -/
def strContains (needle hay : String) : Bool := decide (needle.toList <:+: hay.toList)

section utils
variable {α : Type} [PyNum α]

/-- coacch.py:323-325 `logistic`. -/
noncomputable def logistic (x : α) (b1 b2 b3 : ℝ) : α :=
  let exponent := soft_max (-(lit b3) * x) 10 (scale := 1 / 10)
  lit b1 / (lit 1 + lit b2 * exp exponent) - lit b1 / (lit 1 + lit b2)

/-- coacch.py:290-312 `functional_form`: dispatch on the name of the functional form; raises
`NotImplementedError` for an unknown one. -/
noncomputable def functional_form (x : α) (d : DamageCoeffs) (r : String) : Except Err α :=
  if strContains "Linear" (d.form r) then
    .ok (lit (d.a r) * lit (d.b1 r) * x / lit 100)
  else if strContains "Quadratic" (d.form r) then
    .ok (lit (d.a r) * (lit (d.b1 r) * x + lit (d.b2 r) * pow x (lit 2)) / lit 100)
  else if strContains "Logistic" (d.form r) then
    .ok (lit (d.a r) * logistic x (d.b1 r) (d.b2 r) (d.b3 r) / lit 100)
  else .error .notImplemented

/-- coacch.py:315-320 `damage_fct` (`x0` is never `None` in the model). -/
noncomputable def damage_fct (x x0 : α) (d : DamageCoeffs) (r : String) : Except Err α :=
  match functional_form x d r, functional_form x0 d r with
  | .ok a, .ok b => .ok (a - b)
  | .error e, _ => .error e
  | _, .error e => .error e

end utils

/-- Turn an expression that may raise into a rule outcome.
[coacch.py:312 (`NotImplementedError` inside a rule)] -/
def ruleE (e : Except Err Expr) (k : Expr → Rel) : RuleOut :=
  match e with
  | .ok x => .rel (k x)
  | .error err => .raise err

/-- coacch.py:51-55, constraint `damage_costs`. -/
def rDamageCosts (_ : Params) (t : ℕ) (r : String) : RuleOut :=
  .rel (rv .damage_costs t r =ₚ rv .damage_costs_non_slr t r + rv .damage_costs_slr t r)

/-- coacch.py:168-174, constraint `damage_costs_non_slr`. -/
noncomputable def rNonSlr (p : Params) (t : ℕ) (r : String) : RuleOut :=
  ruleE (damage_fct (gv .temperature t - num 0.6) (num p.T0 - num 0.6) p.noslr r) fun dam =>
    rv .damage_costs_non_slr t r =ₚ num p.damage_scale_factor * dam

/-- coacch.py:270-276, constraint `damage_costs_slr`. -/
noncomputable def rSlr (p : Params) (t : ℕ) (r : String) : RuleOut :=
  ruleE (damage_fct (gv .total_SLR t) (gv .total_SLR 0) p.slr r) fun dam =>
    rv .damage_costs_slr t r =ₚ num p.damage_scale_factor * dam

/-- The right-hand side of the three mortality equations, coacch.py:81,84,87. -/
noncomputable def mortalityRhs (c : MortalityCoeffs) (t : ℕ) (r : String) : Expr :=
  num (c.a r) + num (c.b r) * gv .temperature t + num (c.c r) * pow (gv .temperature t) (num 2)

/-- coacch.py:80-82 (unnamed). -/
noncomputable def rMortOldest (p : Params) (t : ℕ) (r : String) : RuleOut :=
  .rel (rv .mortality_oldest t r =ₚ mortalityRhs p.mortality_oldest t r)
/-- coacch.py:83-85 (unnamed). -/
noncomputable def rMortOlder (p : Params) (t : ℕ) (r : String) : RuleOut :=
  .rel (rv .mortality_older t r =ₚ mortalityRhs p.mortality_older t r)
/-- coacch.py:86-88 (unnamed). -/
noncomputable def rMortYoung (p : Params) (t : ℕ) (r : String) : RuleOut :=
  .rel (rv .mortality_young t r =ₚ mortalityRhs p.mortality_young t r)
/-- coacch.py:95 `statistical_value_life_oldest = 1.3e6/1e6` -/
noncomputable def statistical_value_life_oldest : ℝ := 1.3
/-- coacch.py:98-100 (unnamed). -/
noncomputable def rMortCost (p : Params) (t : ℕ) (r : String) : RuleOut :=
  .rel (rv .mortality_cost_oldest t r =ₚ
    rv .mortality_oldest t r * num (p.population t r) * num 10000 * num statistical_value_life_oldest)

/-- coacch.py:236-239 `slr_param_name`: `regional::COACCH.SLR-{Ad|NoAd}_{name}`. -/
def slrParamName (params : Val) (name : String) : Except Err String :=
  match getNested [.str "economics", .str "damages", .str "coacch_slr_withadapt"] params with
  | .error e => .error e
  | .ok v =>
    let truthy : Bool := match v with
      | .atom (.bool b) => b
      | .atom (.int i) => i ≠ 0
      | .atom (.float f) => f ≠ .fin 0
      | .atom .null => false
      | .atom (.str s) => s ≠ ""
      | .list l => !l.isEmpty
      | .dict d => !d.isEmpty
    .ok ("regional::COACCH.SLR-" ++ (if truthy then "Ad" else "NoAd") ++ "_" ++ name)

/-- coacch.py:22-106,146-177,229-279 `get_constraints` of the COACCH module. -/
noncomputable def coacch : Component where
  vars :=
    [ .regional .damage_costs noBound noBound,
      .regional .damage_costs_non_slr noBound noBound,
      .regional .damage_costs_slr (fun _ => some (-1 / 2)) (fun _ => some (7 / 10)),
      .regional .mortality_oldest noBound noBound,
      .regional .mortality_older noBound noBound,
      .regional .mortality_young noBound noBound,
      .regional .mortality_cost_oldest noBound noBound ]
  params :=
    [ ⟨"damage_scale_factor", .scalar, .str "::economics.damages.scale factor"⟩,
      ⟨"damage_noslr_form", .overR, .str "regional::COACCH.NoSLR_form"⟩,
      ⟨"damage_noslr_b1", .overR, .str "regional::COACCH.NoSLR_b1"⟩,
      ⟨"damage_noslr_b2", .overR, .str "regional::COACCH.NoSLR_b2"⟩,
      ⟨"damage_noslr_b3", .overR, .str "regional::COACCH.NoSLR_b3"⟩,
      ⟨"damage_noslr_a", .overR, .fn fun strOf params =>
        match showNested strOf ["economics", "damages", "quantile"] params with
        | .ok q => .ok ("regional::COACCH.NoSLR_a (q=" ++ q ++ ")")
        | .error e => .error e⟩,
      ⟨"damage_slr_form", .overR, .fn fun _ params => slrParamName params "form"⟩,
      ⟨"damage_slr_b1", .overR, .fn fun _ params => slrParamName params "b1"⟩,
      ⟨"damage_slr_b2", .overR, .fn fun _ params => slrParamName params "b2"⟩,
      ⟨"damage_slr_b3", .overR, .fn fun _ params => slrParamName params "b3"⟩,
      ⟨"damage_slr_a", .overR, .fn fun strOf params =>
        match showNested strOf ["economics", "damages", "quantile"] params with
        | .ok q => slrParamName params ("a (q=" ++ q ++ ")")
        | .error e => .error e⟩,
      ⟨"mortality_param_oldest_a", .overR, .str "regional::mortality.oldest_a"⟩,
      ⟨"mortality_param_oldest_b", .overR, .str "regional::mortality.oldest_b"⟩,
      ⟨"mortality_param_oldest_c", .overR, .str "regional::mortality.oldest_c"⟩,
      ⟨"mortality_param_older_a", .overR, .str "regional::mortality.older_a"⟩,
      ⟨"mortality_param_older_b", .overR, .str "regional::mortality.older_b"⟩,
      ⟨"mortality_param_older_c", .overR, .str "regional::mortality.older_c"⟩,
      ⟨"mortality_param_young_a", .overR, .str "regional::mortality.young_a"⟩,
      ⟨"mortality_param_young_b", .overR, .str "regional::mortality.young_b"⟩,
      ⟨"mortality_param_young_c", .overR, .str "regional::mortality.young_c"⟩,
      ⟨"statistical_value_life_oldest", .scalar, .none⟩ ]
  constraints :=
    [ .regional rDamageCosts (some "damage_costs"),
      .regional rNonSlr (some "damage_costs_non_slr"),
      .regional rSlr (some "damage_costs_slr"),
      .regional rMortOldest none,
      .regional rMortOlder none,
      .regional rMortYoung none,
      .regional rMortCost none ]

/-- nodamage.py:30-32, constraint `zero_damage_costs`. -/
noncomputable def rZero (_ : Params) (t : ℕ) (r : String) : RuleOut :=
  .rel (rv .damage_costs t r =ₚ num 0)

/-- nodamage.py:10-36 `get_constraints` of the no-damage module. -/
noncomputable def nodamage : Component where
  vars := [ .regional .damage_costs noBound noBound ]
  params := []
  constraints := [ .regional rZero (some "zero_damage_costs") ]

end Mimosa.Damages
