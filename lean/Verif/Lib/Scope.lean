import Verif.Lib.Names
import Verif.Eqs

/-! # When instance creation succeeds -/

set_option linter.unusedSimpArgs false

namespace Mimosa
open AbstractModel

/-- Which global variables the chosen modules declare. -/
def Modules.declaresG (md : Modules) : GVar → Bool
  | .overshoot => false
  | .global_carbonprice => md.trade == .emissiontrade
  | _ => true

/-- Which regional variables the chosen modules declare. -/
def Modules.declaresR (md : Modules) : RVar → Bool
  | .damage_costs_non_slr | .damage_costs_slr | .mortality_oldest | .mortality_older | .mortality_young
  | .mortality_cost_oldest => md.damage == .COACCH
  | .paid_for_emission_reductions | .import_export_emission_reduction_balance
  | .import_export_mitigation_cost_balance => md.trade != .notrade
  | .regional_emission_allowances => md.trade == .emissiontrade
  | .financial_transfer | .rel_financial_transfer => md.transfer == .globaldamagepool
  | _ => true

def declGIn (vars : List VarDecl) (v : GVar) : Bool := vars.any fun d => match d with
  | .global w _ _ => w == v
  | .regional _ _ _ => false
def declRIn (vars : List VarDecl) (v : RVar) : Bool := vars.any fun d => match d with
  | .global _ _ _ => false
  | .regional w _ _ => w == v

theorem declG_allVars (md : Modules) (v : GVar) : declGIn (allVars md) v = md.declaresG v := by
  obtain ⟨d, t, f, w, o⟩ := md
  have hd : declGIn (damageComponent d).vars v = false := by cases d <;> rfl
  have hf : declGIn (FinTransfer.component f).vars v = false := by cases f <;> rfl
  have hw : declGIn (Welfare.component w).vars v = (.yearly_welfare == v) := by cases w <;> cases v <;> rfl
  have ho : declGIn (Objective.component o).vars v = (.NPV == v) := by cases o <;> cases v <;> rfl
  have hc : declGIn (CobbDouglas.component f).vars v = false := rfl
  have he : declGIn (EffortSharing.component f).vars v = (.effort_sharing_common_level == v) := by
    cases v <;> rfl
  have ht : declGIn (EmissionTrade.component t).vars v =
      (t == .emissiontrade && .global_carbonprice == v) := by cases t <;> cases v <;> rfl
  have : declGIn (allVars ⟨d, t, f, w, o⟩) v =
      (declGIn Emissions.component.vars v || (declGIn SeaLevelRise.component.vars v ||
      (declGIn (damageComponent d).vars v || (declGIn (Mitigation.component t).vars v ||
      (declGIn (EmissionTrade.component t).vars v || (declGIn (FinTransfer.component f).vars v ||
      (declGIn (EffortSharing.component f).vars v || (declGIn (CobbDouglas.component f).vars v ||
      (declGIn (Welfare.component w).vars v || declGIn (Objective.component o).vars v))))))))) := by
    simp [declGIn, allVars, components, List.any_append]
  rw [this, hd, hf, hw, ho, hc, he, ht]
  cases v <;> cases t <;> rfl

theorem declR_allVars (md : Modules) (v : RVar) : declRIn (allVars md) v = md.declaresR v := by
  obtain ⟨d, t, f, w, o⟩ := md
  have hs : declRIn SeaLevelRise.component.vars v = false := rfl
  have hw : declRIn (Welfare.component w).vars v = (.utility == v) := by cases w <;> cases v <;> rfl
  have ho : declRIn (Objective.component o).vars v = false := by cases o <;> rfl
  have he : declRIn (EffortSharing.component f).vars v = false := rfl
  have : declRIn (allVars ⟨d, t, f, w, o⟩) v =
      (declRIn Emissions.component.vars v || (declRIn SeaLevelRise.component.vars v ||
      (declRIn (damageComponent d).vars v || (declRIn (Mitigation.component t).vars v ||
      (declRIn (EmissionTrade.component t).vars v || (declRIn (FinTransfer.component f).vars v ||
      (declRIn (EffortSharing.component f).vars v || (declRIn (CobbDouglas.component f).vars v ||
      (declRIn (Welfare.component w).vars v || declRIn (Objective.component o).vars v))))))))) := by
    simp [declRIn, allVars, components, List.any_append]
  rw [this, hs, hw, ho, he]
  cases v <;> cases t <;> cases d <;> cases f <;> rfl

theorem exceptUnit_bind {a b : Except Err Unit} :
    (do a; b) = Except.ok () ↔ a = .ok () ∧ b = .ok () := by
  cases a with
  | error e => simp [bind, Except.bind]
  | ok u => simp [bind, Except.bind]

theorem checkExpr_ok (m : AbstractModel) (p : Params) (e : Expr) : m.checkExpr p e = .ok () ↔
    (∀ x ∈ e.gvars, m.declG x.1 = true ∧ 0 ≤ x.2 ∧ x.2 ≤ p.tf) ∧
    (∀ x ∈ e.rvars, m.declR x.1 = true ∧ (0 ≤ x.2.1 ∧ x.2.1 ≤ p.tf) ∧ x.2.2 ∈ p.regions) := by
  induction e with
  | const x => simp [checkExpr, Expr.gvars, Expr.rvars]
  | g v t =>
    simp only [checkExpr, Expr.gvars, Expr.rvars]
    by_cases h : m.declG v = true
    · by_cases h2 : 0 ≤ t ∧ t ≤ p.tf <;> simp [h, h2]
    · simp [h]
  | r v t reg =>
    simp only [checkExpr, Expr.gvars, Expr.rvars]
    by_cases h : m.declR v = true
    · by_cases h2 : (0 ≤ t ∧ t ≤ p.tf) ∧ reg ∈ p.regions
      · simp [h, h2]
      · rw [if_neg (by simp [h]), if_neg h2]; simp [h]
        intro h3 h4 h5; exact h2 ⟨⟨h3, h4⟩, h5⟩
    · simp [h]
  | add a b iha ihb | sub a b iha ihb | mul a b iha ihb | div a b iha ihb | pow a b iha ihb =>
    simp only [checkExpr, Expr.gvars, Expr.rvars, exceptUnit_bind, iha, ihb, List.mem_append, or_imp,
      forall_and]
    tauto
  | neg a iha | atan a iha | exp a iha => simpa only [checkExpr, Expr.gvars, Expr.rvars] using iha

/-- Well-scopedness of one relation, for the declared variables of `md`. -/
def Rel.Scoped (md : Modules) (p : Params) (ρ : Rel) : Prop :=
  ((∀ x ∈ ρ.lhs.gvars, md.declaresG x.1 = true ∧ 0 ≤ x.2 ∧ x.2 ≤ p.tf) ∧
    (∀ x ∈ ρ.lhs.rvars, md.declaresR x.1 = true ∧ (0 ≤ x.2.1 ∧ x.2.1 ≤ p.tf) ∧ x.2.2 ∈ p.regions)) ∧
  ((∀ x ∈ ρ.rhs.gvars, md.declaresG x.1 = true ∧ 0 ≤ x.2 ∧ x.2 ≤ p.tf) ∧
    (∀ x ∈ ρ.rhs.rvars, md.declaresR x.1 = true ∧ (0 ≤ x.2.1 ∧ x.2.1 ≤ p.tf) ∧ x.2.2 ∈ p.regions)) ∧
  ((∃ x, x ∈ ρ.lhs.gvars ∨ x ∈ ρ.rhs.gvars) ∨ (∃ x, x ∈ ρ.lhs.rvars ∨ x ∈ ρ.rhs.rvars))

theorem checkRel_ok {m : AbstractModel} {md : Modules} (hm : m.vars = allVars md) (p : Params) (ρ : Rel) :
    m.checkRel p ρ = .ok () ↔ ρ.Scoped md p := by
  have hg : ∀ v, m.declG v = md.declaresG v := fun v => by
    rw [← declG_allVars, ← hm]; rfl
  have hr : ∀ v, m.declR v = md.declaresR v := fun v => by
    rw [← declR_allVars, ← hm]; rfl
  have hne : ∀ {α : Type} (l : List α), l ≠ [] ↔ ∃ x, x ∈ l := fun l => by
    rw [← List.isEmpty_eq_false_iff, List.isEmpty_eq_false_iff_exists_mem]
  unfold checkRel Rel.Scoped
  rw [exceptUnit_bind, exceptUnit_bind, checkExpr_ok, checkExpr_ok]
  simp only [hg, hr]
  refine and_congr_right fun _ => and_congr_right fun _ => ?_
  by_cases h : ρ.lhs.gvars ++ ρ.rhs.gvars = [] ∧ ρ.lhs.rvars ++ ρ.rhs.rvars = []
  · rw [if_pos h]
    have h1 := h.1; have h2 := h.2
    simp only [List.append_eq_nil_iff] at h1 h2
    simp [h1.1, h1.2, h2.1, h2.2]
  · rw [if_neg h]
    simp only [true_iff]
    rw [not_and_or] at h
    rcases h with h | h
    · left; obtain ⟨x, hx⟩ := (hne _).1 h; exact ⟨x, List.mem_append.1 hx⟩
    · right; obtain ⟨x, hx⟩ := (hne _).1 h; exact ⟨x, List.mem_append.1 hx⟩

/-- Acceptability of a rule outcome for the modules `md`. -/
def OkFor (md : Modules) (p : Params) : RuleOut → Prop
  | .skip => True
  | .raise _ => False
  | .rel ρ => ρ.Scoped md p

@[simp] theorem okFor_rel (md : Modules) (p : Params) (ρ : Rel) :
    OkFor md p (.rel ρ) ↔ ρ.Scoped md p := Iff.rfl
@[simp] theorem okFor_skip (md : Modules) (p : Params) : OkFor md p .skip ↔ True := Iff.rfl
@[simp] theorem okFor_raise (md : Modules) (p : Params) (e : Err) :
    OkFor md p (.raise e) ↔ False := Iff.rfl
@[simp] theorem okFor_onlyIf (md : Modules) (p : Params) (c : Prop) (ρ : Rel) :
    OkFor md p (.onlyIf c ρ) ↔ (c → ρ.Scoped md p) := by
  unfold RuleOut.onlyIf; split <;> simp_all

/-- All outcomes of all constraints in a list satisfy `P`. -/
def AllOut (P : RuleOut → Prop) (p : Params) (cs : List GeneralConstraint) : Prop :=
  ∀ c ∈ cs, ∀ nc ∈ c.toPyomo, ∀ o ∈ nc.2.outcomes p, P o

section
variable (P : RuleOut → Prop) (p : Params)
@[simp] theorem allOut_nil : AllOut P p [] ↔ True := by simp [AllOut]
theorem allOut_cons (c : GeneralConstraint) (cs : List GeneralConstraint) :
    AllOut P p (c :: cs) ↔ AllOut P p [c] ∧ AllOut P p cs := by simp [AllOut]
theorem allOut_append (cs ds : List GeneralConstraint) :
    AllOut P p (cs ++ ds) ↔ AllOut P p cs ∧ AllOut P p ds := by
  simp only [AllOut, List.mem_append, or_imp, forall_and]
theorem allOut_flatMap {α : Type} (l : List α) (f : α → List GeneralConstraint) :
    AllOut P p (l.flatMap f) ↔ ∀ x ∈ l, AllOut P p (f x) := by
  simp only [AllOut, List.mem_flatMap]
  constructor
  · intro h x hx c hc; exact h c ⟨x, hx, hc⟩
  · rintro h c ⟨x, hx, hc⟩; exact h x hx c hc

theorem forall_mem_range_flatMap (tf : ℕ) (L : List String) (f : ℕ → String → RuleOut) :
    (∀ o ∈ (List.range (tf + 1)).flatMap fun t => L.map fun r => f t r, P o) ↔
      ∀ t ≤ tf, ∀ r ∈ L, P (f t r) := by
  constructor
  · intro h t ht r hr
    exact h _ (List.mem_flatMap.2
      ⟨t, List.mem_range.2 (Nat.lt_succ_of_le ht), List.mem_map.2 ⟨r, hr, rfl⟩⟩)
  · intro h o ho
    obtain ⟨t, ht, ho⟩ := List.mem_flatMap.1 ho
    obtain ⟨r, hr, rfl⟩ := List.mem_map.1 ho
    exact h t (Nat.lt_succ_iff.1 (List.mem_range.1 ht)) r hr

theorem allOut_global (rule : Params → ℕ → RuleOut) (n : Option String) :
    AllOut P p [.global rule n] ↔ ∀ t ≤ p.tf, P (rule p t) := by
  simp [AllOut, GeneralConstraint.toPyomo, PyomoConstraint.outcomes]
theorem allOut_globalInit (rule : Params → RuleOut) (n : Option String) :
    AllOut P p [.globalInit rule n] ↔ P (rule p) := by
  simp [AllOut, GeneralConstraint.toPyomo, PyomoConstraint.outcomes]
theorem allOut_regional (rule : Params → ℕ → String → RuleOut) (n : Option String) :
    AllOut P p [.regional rule n] ↔ ∀ t ≤ p.tf, ∀ r ∈ p.regions, P (rule p t r) := by
  simp only [AllOut, GeneralConstraint.toPyomo, PyomoConstraint.outcomes, List.mem_singleton,
    forall_eq]
  exact forall_mem_range_flatMap P p.tf p.regions _
theorem allOut_regionalInit (rule : Params → String → RuleOut) (n : Option String) :
    AllOut P p [.regionalInit rule n] ↔ ∀ r ∈ p.regions, P (rule p r) := by
  simp [AllOut, GeneralConstraint.toPyomo, PyomoConstraint.outcomes]
theorem allOut_regionalSoft (lhs rhs : Params → ℕ → String → Expr) (n : String) (e ae : Option ℝ)
    (ign : Params → ℕ → String → Prop) :
    AllOut P p [.regionalSoft lhs rhs n e ae ign] ↔
      (∀ t ≤ p.tf, ∀ r ∈ p.regions,
        P (.onlyIf (¬ ign p t r) (lhs p t r ≤ₚ rhs_eps e ae true (rhs p t r)))) ∧
      (∀ t ≤ p.tf, ∀ r ∈ p.regions,
        P (.onlyIf (¬ ign p t r) (lhs p t r ≥ₚ rhs_eps e ae false (rhs p t r)))) := by
  simp only [AllOut, GeneralConstraint.toPyomo, PyomoConstraint.outcomes, List.mem_singleton,
    forall_eq, List.mem_cons, List.not_mem_nil, or_false, forall_eq_or_imp, forall_mem_range_flatMap]
end

theorem buildModel_vars {count : ℕ → ℕ} {md : Modules} {m : AbstractModel}
    (h : buildModel count md = .ok m) : m.vars = allVars md ∧
    m.params = allParams md ∧
    m.constraints = (constraintNames count ((allConstraints md).flatMap GeneralConstraint.toPyomo)).zip
      (((allConstraints md).flatMap GeneralConstraint.toPyomo).map (·.2)) ∧
    m.objective = Objective.objectiveExpr ∧ m.sense = Objective.sense md.objective := by
  unfold buildModel at h
  simp only at h
  split at h
  · simp only [Except.ok.injEq] at h; subst h; exact ⟨rfl, rfl, rfl, rfl, rfl⟩
  · simp at h

theorem createInstance_isOk_iff {count : ℕ → ℕ} {md : Modules} {m : AbstractModel} (p : Params)
    (h : buildModel count md = .ok m) :
    (∃ inst, m.createInstance p = .ok inst) ↔ p.InitOk ∧ AllOut (OkFor md p) p (allConstraints md) := by
  obtain ⟨hv, _, hc, _, _⟩ := buildModel_vars h
  have ho : ∀ o, OutcomeOk m p o ↔ OkFor md p o := by
    intro o
    cases o with
    | skip => simp [OutcomeOk]
    | raise e => simp [OutcomeOk]
    | rel ρ => exact checkRel_ok hv p ρ
  rw [createInstance_isOk, hc]
  refine and_congr_right fun _ => ?_
  rw [mem_zip_constraints count _ (fun c => ∀ o ∈ c.outcomes p, OutcomeOk m p o)]
  simp only [ho, AllOut, List.mem_flatMap]
  constructor
  · intro h c hc nc hnc; exact h nc ⟨c, hc, hnc⟩
  · rintro h nc ⟨c, hc, hnc⟩; exact h c hc nc hnc

end Mimosa
