import Verif.Lib.Example

/-!
# Structure of the model: C19 (modules and constraint names), C20 (scoping), C21 (optional constraints)
-/

set_option linter.unusedSimpArgs false

namespace Mimosa
variable {md : Modules} {p : Params} {σ : Env}

/-! ## C19 -/

/-- The module names documented for each configuration option. -/
def Spec.damageNames : List String := ["COACCH", "nodamage"]
def Spec.tradeNames : List String := ["notrade", "globalcostpool", "emissiontrade"]
def Spec.transferNames : List String := ["notransfer", "globaldamagepool"]
def Spec.welfareNames : List String :=
  ["welfare_loss_minimising", "cost_minimising", "inequal_aversion_general"]
def Spec.objectiveNames : List String := ["utility", "globalcosts"]

open Spec in
/-- All five names are documented names. -/
def Spec.KnownModules (d t f w o : String) : Prop :=
  d ∈ damageNames ∧ t ∈ tradeNames ∧ f ∈ transferNames ∧ w ∈ welfareNames ∧ o ∈ objectiveNames

theorem Modules.ofStrings_ok (d t f w o : String) (h : Spec.KnownModules d t f w o) :
    ∃ md, Modules.ofStrings d t f w o = .ok md ∧
      (md.trade = .globalcostpool ↔ t = "globalcostpool") := by
  obtain ⟨h1, h2, h3, h4, h5⟩ := h
  simp only [Spec.damageNames, Spec.tradeNames, Spec.transferNames, Spec.welfareNames,
    Spec.objectiveNames, List.mem_cons, List.not_mem_nil, or_false] at h1 h2 h3 h4 h5
  rcases h1 with rfl | rfl <;> rcases h2 with rfl | rfl | rfl <;> rcases h3 with rfl | rfl <;>
    rcases h4 with rfl | rfl | rfl <;> rcases h5 with rfl | rfl <;>
    exact ⟨_, rfl, by simp⟩

theorem Modules.ofStrings_unknown (d t f w o : String) (h : ¬ Spec.KnownModules d t f w o) :
    Modules.ofStrings d t f w o = .error .notImplemented := by
  have h1 : (∃ x, DamageModule.ofString d = .ok x ∧ d ∈ Spec.damageNames) ∨
      DamageModule.ofString d = .error .notImplemented := by
    unfold DamageModule.ofString Spec.damageNames; split_ifs <;> simp_all
  have h2 : (∃ x, TradeModule.ofString t = .ok x ∧ t ∈ Spec.tradeNames) ∨
      TradeModule.ofString t = .error .notImplemented := by
    unfold TradeModule.ofString Spec.tradeNames; split_ifs <;> simp_all
  have h3 : (∃ x, TransferModule.ofString f = .ok x ∧ f ∈ Spec.transferNames) ∨
      TransferModule.ofString f = .error .notImplemented := by
    unfold TransferModule.ofString Spec.transferNames; split_ifs <;> simp_all
  have h4 : (∃ x, WelfareModule.ofString w = .ok x ∧ w ∈ Spec.welfareNames) ∨
      WelfareModule.ofString w = .error .notImplemented := by
    unfold WelfareModule.ofString Spec.welfareNames; split_ifs <;> simp_all
  have h5 : (∃ x, ObjectiveModule.ofString o = .ok x ∧ o ∈ Spec.objectiveNames) ∨
      ObjectiveModule.ofString o = .error .notImplemented := by
    unfold ObjectiveModule.ofString Spec.objectiveNames; split_ifs <;> simp_all
  unfold Modules.ofStrings
  rcases h1 with ⟨_, e1, m1⟩ | e1
  · rcases h2 with ⟨_, e2, m2⟩ | e2
    · rcases h3 with ⟨_, e3, m3⟩ | e3
      · rcases h4 with ⟨_, e4, m4⟩ | e4
        · rcases h5 with ⟨_, e5, m5⟩ | e5
          · exact absurd ⟨m1, m2, m3, m4, m5⟩ h
          · simp [e1, e2, e3, e4, e5, bind, Except.bind]
        · simp [e1, e2, e3, e4, bind, Except.bind]
      · simp [e1, e2, e3, bind, Except.bind]
    · simp [e1, e2, bind, Except.bind]
  · simp [e1, bind, Except.bind]

/-- Unknown module names raise `NotImplementedError`, whatever the other names are. -/
theorem C19_unknown_module (count : ℕ → ℕ) (d t f w o : String)
    (h : ¬ Spec.KnownModules d t f w o) :
    createAbstractModel count d t f w o = .error .notImplemented := by
  unfold createAbstractModel
  rw [Modules.ofStrings_unknown _ _ _ _ _ h]; rfl
example := C19_unknown_module (fun n => n) "DICE" "notrade" "notransfer" "cost_minimising" "utility" (by
  simp [Spec.KnownModules, Spec.damageNames])

/-- Full claim: `create_abstract_model` succeeds for all combinations of documented names.  It holds for
all of them *except* the trade module `globalcostpool`.  Whenever a model is built, its constraints have
pairwise different names and all constraints of all components are there, in order. -/
theorem C19_builds_partial {count : ℕ → ℕ} (hc : StrictMono count) (d t f w o : String)
    (h : Spec.KnownModules d t f w o) (ht : t ≠ "globalcostpool") :
    ∃ m md, createAbstractModel count d t f w o = .ok m ∧ Modules.ofStrings d t f w o = .ok md ∧
      (m.constraints.map (·.1)).Nodup ∧
      m.constraints.map (·.2) =
        ((components md).flatMap fun c => c.constraints.flatMap fun g => g.toPyomo.map (·.2)) := by
  obtain ⟨md, h1, h2⟩ := Modules.ofStrings_ok d t f w o h
  obtain ⟨m, hm⟩ := (buildModel_isOk hc md).2 (fun e => ht (h2.1 e))
  refine ⟨m, md, ?_, h1, ?_, ?_⟩
  · unfold createAbstractModel; rw [h1]; exact hm
  all_goals
    unfold buildModel at hm
    simp only at hm
    split at hm
    · rename_i hn
      simp only [Except.ok.injEq] at hm
      subst hm
      simp only
      first
        | (rw [List.map_fst_zip (by simp [constraintNames_length])]; exact hn)
        | (rw [List.map_snd_zip (by simp [constraintNames_length])]
           simp [allConstraints, List.map_flatMap, List.flatMap_assoc])
    · simp at hm

/-- Finding: the documented trade module `globalcostpool` can never be built (two constraints are called
`mitigation_costs`; Pyomo raises `RuntimeError`). -/
theorem C19_globalcostpool_fails {count : ℕ → ℕ} (hc : StrictMono count) (d f w o : String)
    (h : Spec.KnownModules d "globalcostpool" f w o) :
    createAbstractModel count d "globalcostpool" f w o = .error .runtimeError := by
  obtain ⟨md, h1, h2⟩ := Modules.ofStrings_ok d _ f w o h
  have hno := (buildModel_isOk hc md).not.2 (not_not.2 (h2.2 rfl))
  unfold createAbstractModel
  rw [h1]
  show buildModel count md = _
  unfold buildModel at hno ⊢
  simp only at hno ⊢
  split at hno
  · exact absurd ⟨_, rfl⟩ hno
  · rename_i hn; rw [if_neg hn]

example : Spec.KnownModules "COACCH" "emissiontrade" "globaldamagepool" "cost_minimising" "globalcosts" ∧
    "emissiontrade" ≠ "globalcostpool" := by
  simp [Spec.KnownModules, Spec.damageNames, Spec.tradeNames, Spec.transferNames, Spec.welfareNames,
    Spec.objectiveNames]
example : Spec.KnownModules "COACCH" "globalcostpool" "notransfer" "cost_minimising" "utility" := by
  simp [Spec.KnownModules, Spec.damageNames, Spec.tradeNames, Spec.transferNames, Spec.welfareNames,
    Spec.objectiveNames]
example : ¬ Spec.KnownModules "coacch" "notrade" "notransfer" "cost_minimising" "utility" := by
  simp [Spec.KnownModules, Spec.damageNames]

/-! ## C20 -/

/-- All variables in a relation exist in the model and are used at indices of the model. -/
def Spec.WellScoped (m : AbstractModel) (p : Params) (ρ : Rel) : Prop :=
  (∀ v t, (v, t) ∈ ρ.lhs.gvars ++ ρ.rhs.gvars →
    (∃ l u, VarDecl.global v l u ∈ m.vars) ∧ 0 ≤ t ∧ t ≤ p.tf) ∧
  (∀ v t r, (v, t, r) ∈ ρ.lhs.rvars ++ ρ.rhs.rvars →
    (∃ l u, VarDecl.regional v l u ∈ m.vars) ∧ 0 ≤ t ∧ t ≤ p.tf ∧ r ∈ p.regions)

theorem declG_iff (m : AbstractModel) (v : GVar) :
    m.declG v = true ↔ ∃ l u, VarDecl.global v l u ∈ m.vars := by
  unfold AbstractModel.declG
  rw [List.any_eq_true]
  constructor
  · rintro ⟨d, hd, h⟩
    cases d with
    | global w l u => simp only [beq_iff_eq] at h; subst h; exact ⟨l, u, hd⟩
    | regional w l u => simp at h
  · rintro ⟨l, u, h⟩; exact ⟨_, h, by simp⟩

theorem declR_iff (m : AbstractModel) (v : RVar) :
    m.declR v = true ↔ ∃ l u, VarDecl.regional v l u ∈ m.vars := by
  unfold AbstractModel.declR
  rw [List.any_eq_true]
  constructor
  · rintro ⟨d, hd, h⟩
    cases d with
    | regional w l u => simp only [beq_iff_eq] at h; subst h; exact ⟨l, u, hd⟩
    | global w l u => simp at h
  · rintro ⟨l, u, h⟩; exact ⟨_, h, by simp⟩

theorem checkExpr_scoped {m : AbstractModel} {E : Expr} (h : m.checkExpr p E = .ok ()) :
    (∀ v t, (v, t) ∈ E.gvars → (∃ l u, VarDecl.global v l u ∈ m.vars) ∧ 0 ≤ t ∧ t ≤ p.tf) ∧
    (∀ v t r, (v, t, r) ∈ E.rvars →
      (∃ l u, VarDecl.regional v l u ∈ m.vars) ∧ 0 ≤ t ∧ t ≤ p.tf ∧ r ∈ p.regions) := by
  have bin : ∀ a b : Expr,
      (m.checkExpr p a = .ok () → (∀ v t, (v, t) ∈ a.gvars →
        (∃ l u, VarDecl.global v l u ∈ m.vars) ∧ 0 ≤ t ∧ t ≤ p.tf) ∧ (∀ v t r, (v, t, r) ∈ a.rvars →
      (∃ l u, VarDecl.regional v l u ∈ m.vars) ∧ 0 ≤ t ∧ t ≤ p.tf ∧ r ∈ p.regions)) →
      (m.checkExpr p b = .ok () → (∀ v t, (v, t) ∈ b.gvars →
        (∃ l u, VarDecl.global v l u ∈ m.vars) ∧ 0 ≤ t ∧ t ≤ p.tf) ∧ (∀ v t r, (v, t, r) ∈ b.rvars →
      (∃ l u, VarDecl.regional v l u ∈ m.vars) ∧ 0 ≤ t ∧ t ≤ p.tf ∧ r ∈ p.regions)) →
      (do m.checkExpr p a; m.checkExpr p b) = (.ok () : Except Err Unit) →
      (∀ v t, (v, t) ∈ a.gvars ++ b.gvars →
        (∃ l u, VarDecl.global v l u ∈ m.vars) ∧ 0 ≤ t ∧ t ≤ p.tf) ∧
      (∀ v t r, (v, t, r) ∈ a.rvars ++ b.rvars →
      (∃ l u, VarDecl.regional v l u ∈ m.vars) ∧ 0 ≤ t ∧ t ≤ p.tf ∧ r ∈ p.regions) := by
    intro a b iha ihb hh
    cases h1 : m.checkExpr p a with
    | error e => simp [h1, bind, Except.bind] at hh
    | ok u =>
      simp only [h1, bind, Except.bind] at hh
      have ha := iha h1
      have hb := ihb hh
      refine ⟨fun v t hv => ?_, fun v t r hv => ?_⟩
      · rcases List.mem_append.1 hv with hv | hv
        · exact ha.1 v t hv
        · exact hb.1 v t hv
      · rcases List.mem_append.1 hv with hv | hv
        · exact ha.2 v t r hv
        · exact hb.2 v t r hv
  induction E with
  | const x => simp [Expr.gvars, Expr.rvars]
  | g v t =>
    simp only [AbstractModel.checkExpr] at h
    split_ifs at h with h1 h2
    simp only [Bool.not_eq_true', Bool.not_eq_false] at h1
    refine ⟨fun w s hw => ?_, fun w s r hw => by simp [Expr.rvars] at hw⟩
    simp only [Expr.gvars, List.mem_singleton, Prod.mk.injEq] at hw
    obtain ⟨rfl, rfl⟩ := hw
    exact ⟨(declG_iff m _).1 h1, h2⟩
  | r v t r =>
    simp only [AbstractModel.checkExpr] at h
    split_ifs at h with h1 h2
    simp only [Bool.not_eq_true', Bool.not_eq_false] at h1
    refine ⟨fun w s hw => by simp [Expr.gvars] at hw, fun w s r hw => ?_⟩
    simp only [Expr.rvars, List.mem_singleton, Prod.mk.injEq] at hw
    obtain ⟨rfl, rfl, rfl⟩ := hw
    exact ⟨(declR_iff m _).1 h1, h2.1.1, h2.1.2, h2.2⟩
  | add a b iha ihb => exact bin a b iha ihb h
  | sub a b iha ihb => exact bin a b iha ihb h
  | mul a b iha ihb => exact bin a b iha ihb h
  | div a b iha ihb => exact bin a b iha ihb h
  | pow a b iha ihb => exact bin a b iha ihb h
  | neg a ih => exact ih h
  | atan a ih => exact ih h
  | exp a ih => exact ih h

theorem checkRel_scoped {m : AbstractModel} {ρ : Rel} (h : m.checkRel p ρ = .ok ()) :
    Spec.WellScoped m p ρ := by
  unfold AbstractModel.checkRel at h
  cases h1 : m.checkExpr p ρ.lhs with
  | error e => simp [h1, bind, Except.bind] at h
  | ok u =>
    cases h2 : m.checkExpr p ρ.rhs with
    | error e => simp [h1, h2, bind, Except.bind] at h
    | ok u =>
      have a := checkExpr_scoped h1
      have b := checkExpr_scoped h2
      refine ⟨fun v t hv => ?_, fun v t r hv => ?_⟩
      · rcases List.mem_append.1 hv with hv | hv
        · exact a.1 v t hv
        · exact b.1 v t hv
      · rcases List.mem_append.1 hv with hv | hv
        · exact a.2 v t r hv
        · exact b.2 v t r hv

/-- The relations among rule outcomes. -/
def RuleOut.rel? : RuleOut → Option Rel
  | .rel ρ => some ρ
  | _ => none

theorem collect_eq {m : AbstractModel} {os : List RuleOut} {rs : List Rel}
    (h : m.collect p os = .ok rs) :
    rs = os.filterMap RuleOut.rel? ∧ ∀ ρ ∈ rs, Spec.WellScoped m p ρ := by
  induction os generalizing rs with
  | nil => simp only [AbstractModel.collect, Except.ok.injEq] at h; subst h; simp
  | cons o os ih =>
    cases o with
    | skip => simp only [AbstractModel.collect] at h; exact ih h
    | raise e => simp [AbstractModel.collect] at h
    | rel ρ =>
      simp only [AbstractModel.collect, bind, Except.bind] at h
      cases h1 : m.checkRel p ρ with
      | error e => simp [h1] at h
      | ok u =>
        cases h2 : m.collect p os with
        | error e => simp [h1, h2] at h
        | ok rest =>
          simp only [h1, h2, pure, Except.pure, Except.ok.injEq] at h
          subst h
          obtain ⟨e, hs⟩ := ih h2
          refine ⟨by simp [RuleOut.rel?, ← e], ?_⟩
          rw [List.forall_mem_cons]
          exact ⟨checkRel_scoped h1, hs⟩

theorem collectAll_eq {m : AbstractModel} {cs : List (String × PyomoConstraint)}
    {act : List (String × List Rel)} (h : m.collectAll p cs = .ok act) :
    act = cs.map (fun nc => (nc.1, (nc.2.outcomes p).filterMap RuleOut.rel?)) ∧
      ∀ nr ∈ act, ∀ ρ ∈ nr.2, Spec.WellScoped m p ρ := by
  induction cs generalizing act with
  | nil => simp only [AbstractModel.collectAll, Except.ok.injEq] at h; subst h; simp
  | cons c cs ih =>
    obtain ⟨n, c⟩ := c
    simp only [AbstractModel.collectAll, bind, Except.bind] at h
    cases h1 : m.collect p (c.outcomes p) with
    | error e => simp [h1] at h
    | ok rels =>
      cases h2 : m.collectAll p cs with
      | error e => simp [h1, h2] at h
      | ok rest =>
        simp only [h1, h2, pure, Except.pure, Except.ok.injEq] at h
        subst h
        obtain ⟨e, hs⟩ := ih h2
        obtain ⟨e1, hs1⟩ := collect_eq h1
        refine ⟨by simp [← e, ← e1], ?_⟩
        rw [List.forall_mem_cons]
        exact ⟨hs1, hs⟩

theorem createInstance_eq {m : AbstractModel} {inst : AbstractModel.Instance}
    (h : m.createInstance p = .ok inst) :
    inst.active = m.constraints.map (fun nc => (nc.1, (nc.2.outcomes p).filterMap RuleOut.rel?)) ∧
      ∀ nr ∈ inst.active, ∀ ρ ∈ nr.2, Spec.WellScoped m p ρ := by
  unfold AbstractModel.createInstance at h
  split at h
  · cases h2 : m.collectAll p m.constraints with
    | error e => simp [h2] at h
    | ok act =>
      simp only [h2, Except.ok.injEq] at h
      subst h
      exact collectAll_eq h2
  · simp at h

/-- In every created instance each active constraint only mentions declared variables at existing time
steps and regions. -/
theorem C20_instance_well_scoped {m : AbstractModel} {inst : AbstractModel.Instance}
    (h : m.createInstance p = .ok inst) : ∀ nr ∈ inst.active, ∀ ρ ∈ nr.2, Spec.WellScoped m p ρ :=
  (createInstance_eq h).2

/-- Full claim: instance creation never fails because of scoping.  What holds: for every module combination
that can be built, any number (≥ 1) of regions and any horizon, creation succeeds **exactly** when the
parameter initialisers succeed and `InstanceOk` excludes the four failures listed below it. -/
theorem C20_instantiation_partial {count : ℕ → ℕ} {m : AbstractModel}
    (hm : buildModel count md = .ok m) (htr : md.trade ≠ .globalcostpool) (hr : p.regions ≠ []) :
    (∃ inst, m.createInstance p = .ok inst) ↔
      p.InitOk ∧
      -- a carbon budget with partially irreversible damages uses the undeclared `m.overshoot`
      (p.budget ≠ none → p.perc_reversible_damages < 1 → ∀ t ≤ p.tf, p.year t < 2100) ∧
      -- with a horizon starting after 2100 the non-increase rule uses time index -1
      (p.non_increasing_emissions_after_2100 = true → p.year (-1) ≤ 2100) ∧
      -- unknown functional forms
      (md.damage = .COACCH → ∀ r ∈ p.regions, KnownForm p.noslr r ∧ KnownForm p.slr r) ∧
      -- the per-capita-convergence rule uses the allowances that only emission trade declares
      (p.effort_sharing_regime = "per_cap_convergence" → md.trade = .emissiontrade ∨ p.tf = 0) := by
  rw [createInstance_isOk_iff p hm, scope_all hr htr]

/-- Finding: a budget together with "percentage reversible" < 1 cannot be instantiated on a horizon that
reaches 2100. -/
theorem C20_overshoot_fails {count : ℕ → ℕ} {m : AbstractModel} (hm : buildModel count md = .ok m)
    (htr : md.trade ≠ .globalcostpool) (hr : p.regions ≠ []) (hb : p.budget ≠ none)
    (hp : p.perc_reversible_damages < 1) {t : ℕ} (ht : t ≤ p.tf) (hy : 2100 ≤ p.year t) :
    ¬ ∃ inst, m.createInstance p = .ok inst := by
  rw [C20_instantiation_partial hm htr hr]
  rintro ⟨_, h, _⟩
  exact absurd (h hb hp t ht) (not_lt.2 hy)

/-- Finding: per-capita convergence without emission trade cannot be instantiated. -/
theorem C20_percapconv_needs_trade {count : ℕ → ℕ} {m : AbstractModel}
    (hm : buildModel count md = .ok m) (htr : md.trade = .notrade) (hr : p.regions ≠ [])
    (he : p.effort_sharing_regime = "per_cap_convergence") (htf : 0 < p.tf) :
    ¬ ∃ inst, m.createInstance p = .ok inst := by
  rw [C20_instantiation_partial hm (by simp [htr]) hr]
  rintro ⟨_, _, _, _, h⟩
  rcases h he with h | h
  · simp [htr] at h
  · omega

/-- Finding: the non-increase switch on a horizon starting (strictly) more than one step after 2100 fails
with a `KeyError` for time index -1. -/
theorem C20_index_fails {count : ℕ → ℕ} {m : AbstractModel} (hm : buildModel count md = .ok m)
    (htr : md.trade ≠ .globalcostpool) (hr : p.regions ≠ [])
    (hn : p.non_increasing_emissions_after_2100 = true) (hy : 2100 < p.beginyear - p.dt) :
    ¬ ∃ inst, m.createInstance p = .ok inst := by
  rw [C20_instantiation_partial hm htr hr]
  rintro ⟨_, _, h, _⟩
  have := h hn
  simp only [Params.year] at this
  push_cast at this
  linarith

/-- The example instance can be created, with all its optional constraints switched on. -/
example : ∃ count m inst, buildModel count Ex.m0 = .ok m ∧ m.createInstance Ex.p0 = .ok inst ∧
    Ex.p0.budget ≠ none ∧ Ex.p0.non_increasing_emissions_after_2100 = true := by
  obtain ⟨c, hc, m, inst, h1, h2, _⟩ := Ex.sol0
  exact ⟨c, m, inst, h1, h2, by simp [Ex.p0, Ex.ex], rfl⟩
example : ∃ p : Params, p.budget ≠ none ∧ p.perc_reversible_damages < 1 ∧ p.regions ≠ [] ∧
    ∃ t ≤ p.tf, 2100 ≤ p.year t :=
  ⟨{ Ex.p0 with perc_reversible_damages := 1 / 2 }, by simp [Ex.p0, Ex.ex],
    by show (1 : ℝ) / 2 < 1; norm_num, by simp [Ex.p0, Ex.ex], 3, le_rfl,
    by norm_num [Params.year, Ex.p0, Ex.ex]⟩

/-! ## C21 -/

/-- The Pyomo constraint that `create_abstract_model` adds under a given name. -/
noncomputable def Spec.named (md : Modules) (name : String) : Option PyomoConstraint :=
  (((allConstraints md).flatMap GeneralConstraint.toPyomo).find? fun nc => nc.1 == some name).map (·.2)

/-- What the rule of a constraint returns at time `t` (and region `r` if it is regional). -/
def PyomoConstraint.outcomeAt (p : Params) (t : ℕ) (r : String) : PyomoConstraint → RuleOut
  | .overT rule => rule p t
  | .scalar rule => rule p
  | .overTR rule => rule p t r
  | .overR rule => rule p r

/-- At `(t, r)` the constraint called `name` is active and requires exactly `Q`. -/
def Spec.Requires (md : Modules) (p : Params) (name : String) (t : ℕ) (r : String)
    (Q : Env → Prop) : Prop :=
  ∃ c ρ, Spec.named md name = some c ∧ c.outcomeAt p t r = .rel ρ ∧ ∀ σ, ρ.Holds σ ↔ Q σ

/-- At `(t, r)` the constraint called `name` exists but is skipped. -/
def Spec.Skipped (md : Modules) (p : Params) (name : String) (t : ℕ) (r : String) : Prop :=
  ∃ c, Spec.named md name = some c ∧ c.outcomeAt p t r = .skip

open Spec Rel

theorem onlyIf_pos {c : Prop} (h : c) (ρ : Rel) : RuleOut.onlyIf c ρ = .rel ρ := by
  simp [RuleOut.onlyIf, h]
theorem onlyIf_neg {c : Prop} (h : ¬ c) (ρ : Rel) : RuleOut.onlyIf c ρ = .skip := by
  simp [RuleOut.onlyIf, h]

theorem requires_of {name : String} {t : ℕ} {r : String} {Q : Env → Prop} {c : PyomoConstraint}
    {ρ : Rel} (hn : named md name = some c) (h : c.outcomeAt p t r = .rel ρ)
    (hQ : ∀ σ, ρ.Holds σ ↔ Q σ) : Requires md p name t r Q := ⟨c, ρ, hn, h, hQ⟩

theorem requires_onlyIf {name : String} {t : ℕ} {r : String} {Q : Env → Prop} {c : PyomoConstraint}
    {ρ : Rel} {C : Prop} (hn : named md name = some c) (h : c.outcomeAt p t r = .onlyIf C ρ) (hC : C)
    (hQ : ∀ σ, ρ.Holds σ ↔ Q σ) : Requires md p name t r Q := ⟨c, ρ, hn, h.trans (onlyIf_pos hC ρ), hQ⟩

theorem skipped_onlyIf {name : String} {t : ℕ} {r : String} {c : PyomoConstraint}
    {ρ : Rel} {C : Prop} (hn : named md name = some c) (h : c.outcomeAt p t r = .onlyIf C ρ)
    (hC : ¬ C) : Skipped md p name t r := ⟨c, hn, h.trans (onlyIf_neg hC ρ)⟩

/-- Temperature target: active exactly if set and from 2100 on. -/
theorem C21_temperature_target (t : ℕ) (r : String) :
    (∀ T, p.temperature_target = some T → 2100 ≤ p.year t →
      Requires md p "temperature_target" t r fun σ => σ.G .temperature t ≤ T) ∧
    (p.temperature_target = none ∨ p.year t < 2100 → Skipped md p "temperature_target" t r) := by
  have hn : named md "temperature_target" = some (.overT Emissions.rTemperatureTarget) := rfl
  have hs : ∀ T, p.temperature_target = some T → (PyomoConstraint.overT
      Emissions.rTemperatureTarget).outcomeAt p t r = _ := fun T hT => by
    simp only [PyomoConstraint.outcomeAt, Emissions.rTemperatureTarget, hT]; rfl
  refine ⟨fun T hT hy => requires_onlyIf hn (hs T hT) hy fun σ => by simp [holds_le], fun h => ?_⟩
  cases hT : p.temperature_target with
  | none => exact ⟨_, hn, by simp [PyomoConstraint.outcomeAt, Emissions.rTemperatureTarget, hT]⟩
  | some T =>
    exact skipped_onlyIf hn (hs T hT) (not_le.2 (h.resolve_left (by simp [hT])))

/-- Carbon budget: active exactly if set and from 2100 on (fully reversible damages). -/
theorem C21_carbon_budget (hp : 1 ≤ p.perc_reversible_damages) (t : ℕ) (r : String) :
    (∀ b, p.budget = some b → 2100 ≤ p.year t →
      Requires md p "carbon_budget" t r fun σ => σ.G .cumulative_emissions t ≤ b) ∧
    (p.budget = none ∨ p.year t < 2100 → Skipped md p "carbon_budget" t r) := by
  have hn : named md "carbon_budget" = some (.overT Emissions.rCarbonBudget) := rfl
  have hs : ∀ b, p.budget = some b → (PyomoConstraint.overT
      Emissions.rCarbonBudget).outcomeAt p t r = _ := fun b hb => by
    simp only [PyomoConstraint.outcomeAt, Emissions.rCarbonBudget, hb]; rfl
  refine ⟨fun b hb hy => requires_onlyIf hn (hs b hb) hy fun σ => by
    simp [holds_le, not_lt.2 hp], fun h => ?_⟩
  cases hb : p.budget with
  | none => exact ⟨_, hn, by simp [PyomoConstraint.outcomeAt, Emissions.rCarbonBudget, hb]⟩
  | some b =>
    exact skipped_onlyIf hn (hs b hb) (not_le.2 (h.resolve_left (by simp [hb])))

/-- Inertia: active exactly if set, at every step after the first. -/
theorem C21_inertia (t : ℕ) (r : String) :
    (∀ i, p.inertia_global = some i → Requires md p "global_inertia" (t + 1) r fun σ =>
      p.dt * i * (p.regions.map fun r => p.baseline_emissions 0 r).sum ≤
        σ.G .global_emissions (t + 1) - σ.G .global_emissions t) ∧
    (p.inertia_global = none → Skipped md p "global_inertia" t r) ∧
    (∀ i, p.inertia_regional = some i → Requires md p "regional_inertia" (t + 1) r fun σ =>
      p.dt * i * p.baseline_emissions 0 r ≤
        σ.R .regional_emissions (t + 1) r - σ.R .regional_emissions t r) ∧
    (p.inertia_regional = none → Skipped md p "regional_inertia" t r) ∧
    Skipped md p "global_inertia" 0 r ∧ Skipped md p "regional_inertia" 0 r := by
  have hn : named md "global_inertia" = some (.overT Emissions.rGlobalInertia) := rfl
  have hn' : named md "regional_inertia" = some (.overTR Emissions.rRegionalInertia) := rfl
  have hs : ∀ i t, p.inertia_global = some i → (PyomoConstraint.overT
      Emissions.rGlobalInertia).outcomeAt p t r = _ := fun i t hi => by
    simp only [PyomoConstraint.outcomeAt, Emissions.rGlobalInertia, hi]; rfl
  have hs' : ∀ i t, p.inertia_regional = some i → (PyomoConstraint.overTR
      Emissions.rRegionalInertia).outcomeAt p t r = _ := fun i t hi => by
    simp only [PyomoConstraint.outcomeAt, Emissions.rRegionalInertia, hi]; rfl
  have z : ∀ t, p.inertia_global = none → Skipped md p "global_inertia" t r := fun t h =>
    ⟨_, hn, by simp [PyomoConstraint.outcomeAt, Emissions.rGlobalInertia, h]⟩
  have z' : ∀ t, p.inertia_regional = none → Skipped md p "regional_inertia" t r := fun t h =>
    ⟨_, hn', by simp [PyomoConstraint.outcomeAt, Emissions.rRegionalInertia, h]⟩
  refine ⟨fun i hi => requires_onlyIf hn (hs i _ hi) (Nat.succ_pos t) fun σ => ?_, z t,
    fun i hi => requires_onlyIf hn' (hs' i _ hi) (Nat.succ_pos t) fun σ => ?_, z' t, ?_, ?_⟩
  · simp only [holds_ge, cast_succ_sub_one, eval_sumRegions, defined_sumRegions, Expr.eval_mul,
      Expr.eval_sub, Expr.eval_g, Expr.eval_const, Expr.defined_mul, Expr.defined_sub, Expr.defined_g,
      Expr.defined_const]
    simp [Params.sumR]
    exact Iff.rfl
  · simp [holds_ge, cast_succ_sub_one]
    exact Iff.rfl
  · cases h : p.inertia_global with
    | none => exact z 0 h
    | some i => exact skipped_onlyIf hn (hs i 0 h) (lt_irrefl 0)
  · cases h : p.inertia_regional with
    | none => exact z' 0 h
    | some i => exact skipped_onlyIf hn' (hs' i 0 h) (lt_irrefl 0)

/-- Minimum emission levels: active exactly if set, at every step. -/
theorem C21_min_levels (t : ℕ) (r : String) :
    (∀ l, p.global_min_level = some l →
      Requires md p "global_min_level" t r fun σ => l ≤ σ.G .global_emissions t) ∧
    (p.global_min_level = none → Skipped md p "global_min_level" t r) ∧
    (∀ l, p.regional_min_level = some l →
      Requires md p "regional_min_level" t r fun σ => l ≤ σ.R .regional_emissions t r) ∧
    (p.regional_min_level = none → Skipped md p "regional_min_level" t r) := by
  have hn : named md "global_min_level" = some (.overT Emissions.rGlobalMinLevel) := rfl
  have hn' : named md "regional_min_level" = some (.overTR Emissions.rRegionalMinLevel) := rfl
  refine ⟨fun i hi => requires_of hn (?_ : _ = RuleOut.rel (gv .global_emissions t ≥ₚ num i)) ?_,
    fun h => ⟨_, hn, ?_⟩,
    fun i hi => requires_of hn' (?_ : _ = RuleOut.rel (rv .regional_emissions t r ≥ₚ num i)) ?_,
    fun h => ⟨_, hn', ?_⟩⟩
  · simp only [PyomoConstraint.outcomeAt, Emissions.rGlobalMinLevel, hi]
  · intro σ; simp [holds_ge]
  · simp [PyomoConstraint.outcomeAt, Emissions.rGlobalMinLevel, h]
  · simp only [PyomoConstraint.outcomeAt, Emissions.rRegionalMinLevel, hi]
  · intro σ; simp [holds_ge]
  · simp [PyomoConstraint.outcomeAt, Emissions.rRegionalMinLevel, h]

/-- Non-increasing emissions after 2100: active exactly if switched on and the *previous* model year is
after 2100. -/
theorem C21_non_increasing (t : ℕ) (r : String) :
    (p.non_increasing_emissions_after_2100 = true → 2100 < p.year t →
      Requires md p "non_increasing_emissions_after_2100" (t + 1) r fun σ =>
        σ.R .regional_emissions (t + 1) r ≤ σ.R .regional_emissions t r) ∧
    (p.non_increasing_emissions_after_2100 = false ∨ p.year t ≤ 2100 →
      Skipped md p "non_increasing_emissions_after_2100" (t + 1) r) := by
  have hn : named md "non_increasing_emissions_after_2100" =
    some (.overTR Emissions.rNonIncreasing) := rfl
  refine ⟨fun h hy => requires_onlyIf hn rfl ?_ fun σ => ?_, fun h => skipped_onlyIf hn rfl ?_⟩
  · rw [cast_succ_sub_one]; exact ⟨hy, h⟩
  · simp [holds_le, cast_succ_sub_one]
    exact Iff.rfl
  · rw [cast_succ_sub_one]
    rintro ⟨h1, h2⟩
    rcases h with h | h
    · simp [h] at h2
    · exact absurd h1 (not_lt.2 h)

/-- Net zero after 2100: active exactly if switched on, with a budget, from 2100 on. -/
theorem C21_net_zero (t : ℕ) (r : String) :
    (p.no_pos_emissions_after_budget_year = true → p.budget ≠ none → 2100 ≤ p.year t →
      Requires md p "net_zero_after_2100" t r fun σ => σ.G .global_emissions t ≤ 0) ∧
    (p.no_pos_emissions_after_budget_year = false ∨ p.budget = none ∨ p.year t < 2100 →
      Skipped md p "net_zero_after_2100" t r) := by
  have hn : named md "net_zero_after_2100" = some (.overT Emissions.rNetZero) := rfl
  refine ⟨fun h hb hy => requires_onlyIf hn rfl ⟨hy, h, hb⟩ fun σ => by simp [holds_le],
    fun h => skipped_onlyIf hn rfl ?_⟩
  rintro ⟨h1, h2, h3⟩
  rcases h with h | h | h
  · simp [h] at h2
  · exact h3 h
  · exact absurd h1 (not_le.2 h)

/-- Effort sharing: the constraints of a regime are active exactly if it is selected (total costs: only up
to 2100; per-capita convergence: only after the first step). -/
theorem C21_effort_sharing (t : ℕ) (r : String) :
    (p.effort_sharing_regime = "equal_mitigation_costs" →
      Requires md p "effort_sharing_regime_mitigation_costs_upperbound" t r (fun σ =>
        σ.R .rel_mitigation_costs t r ≤ (1 + 0.005) * σ.G .effort_sharing_common_level t) ∧
      Requires md p "effort_sharing_regime_mitigation_costs_lowerbound" t r (fun σ =>
        (1 - 0.005) * σ.G .effort_sharing_common_level t ≤ σ.R .rel_mitigation_costs t r)) ∧
    (p.effort_sharing_regime ≠ "equal_mitigation_costs" →
      Skipped md p "effort_sharing_regime_mitigation_costs_upperbound" t r ∧
      Skipped md p "effort_sharing_regime_mitigation_costs_lowerbound" t r) ∧
    (p.effort_sharing_regime ≠ "equal_total_costs" ∨ 2100 < p.year t →
      Skipped md p "effort_sharing_regime_total_costs_upperbound" t r ∧
      Skipped md p "effort_sharing_regime_total_costs_lowerbound" t r) ∧
    (p.effort_sharing_regime = "equal_total_costs" → p.year t ≤ 2100 →
      Requires md p "effort_sharing_regime_total_costs_upperbound" t r (fun σ =>
        σ.R .rel_mitigation_costs t r + σ.R .damage_costs t r + relTransferVal σ md.transfer t r ≤
          (1 + 0.005) * σ.G .effort_sharing_common_level t) ∧
      Requires md p "effort_sharing_regime_total_costs_lowerbound" t r (fun σ =>
        (1 - 0.005) * σ.G .effort_sharing_common_level t ≤
          σ.R .rel_mitigation_costs t r + σ.R .damage_costs t r + relTransferVal σ md.transfer t r)) ∧
    (p.effort_sharing_regime ≠ "per_cap_convergence" ∨ t = 0 →
      Skipped md p "percapconv_rule_upperbound" t r ∧ Skipped md p "percapconv_rule_lowerbound" t r) ∧
    (p.effort_sharing_regime = "per_cap_convergence" → 0 < t →
      Requires md p "percapconv_rule_upperbound" t r (fun σ =>
        p.percapconv_share t r * σ.G .global_emissions t ≤
          σ.R .regional_emission_allowances t r + 0.001) ∧
      Requires md p "percapconv_rule_lowerbound" t r (fun σ =>
        σ.R .regional_emission_allowances t r - 0.001 ≤
          p.percapconv_share t r * σ.G .global_emissions t)) := by
  obtain ⟨d, tr, tf, w, o⟩ := md
  have n1 : named ⟨d, tr, tf, w, o⟩ "effort_sharing_regime_mitigation_costs_upperbound" =
      EffortSharing.equalMitigationCosts.toPyomo[0]?.map (·.2) := by
    cases d <;> cases tr <;> cases tf <;> rfl
  have n2 : named ⟨d, tr, tf, w, o⟩ "effort_sharing_regime_mitigation_costs_lowerbound" =
      EffortSharing.equalMitigationCosts.toPyomo[1]?.map (·.2) := by
    cases d <;> cases tr <;> cases tf <;> rfl
  have n3 : named ⟨d, tr, tf, w, o⟩ "effort_sharing_regime_total_costs_upperbound" =
      (EffortSharing.equalTotalCosts tf).toPyomo[0]?.map (·.2) := by
    cases d <;> cases tr <;> cases tf <;> rfl
  have n4 : named ⟨d, tr, tf, w, o⟩ "effort_sharing_regime_total_costs_lowerbound" =
      (EffortSharing.equalTotalCosts tf).toPyomo[1]?.map (·.2) := by
    cases d <;> cases tr <;> cases tf <;> rfl
  have n5 : named ⟨d, tr, tf, w, o⟩ "percapconv_rule_upperbound" =
      EffortSharing.percapconv.toPyomo[0]?.map (·.2) := by
    cases d <;> cases tr <;> cases tf <;> rfl
  have n6 : named ⟨d, tr, tf, w, o⟩ "percapconv_rule_lowerbound" =
      EffortSharing.percapconv.toPyomo[1]?.map (·.2) := by
    cases d <;> cases tr <;> cases tf <;> rfl
  refine ⟨fun h => ⟨requires_onlyIf n1 rfl (not_not.2 h) fun σ => ?_,
      requires_onlyIf n2 rfl (not_not.2 h) fun σ => ?_⟩,
    fun h => ⟨skipped_onlyIf n1 rfl (not_not.2 h), skipped_onlyIf n2 rfl (not_not.2 h)⟩,
    fun h => ⟨skipped_onlyIf n3 rfl (not_not.2 h), skipped_onlyIf n4 rfl (not_not.2 h)⟩,
    fun h hy => ⟨requires_onlyIf n3 rfl ?_ fun σ => ?_, requires_onlyIf n4 rfl ?_ fun σ => ?_⟩,
    fun h => ⟨skipped_onlyIf n5 rfl (not_not.2 h), skipped_onlyIf n6 rfl (not_not.2 h)⟩,
    fun h ht => ⟨requires_onlyIf n5 rfl ?_ fun σ => ?_, requires_onlyIf n6 rfl ?_ fun σ => ?_⟩⟩
  · simp [holds_le, rhs_eps]
  · simp [holds_ge, rhs_eps, sub_eq_add_neg]
  · rintro (h' | h')
    · exact h' h
    · exact absurd h' (not_lt.2 hy)
  · cases tf <;> simp [holds_le, rhs_eps, relTransferVal, FinTransfer.relTransfer]
  · rintro (h' | h')
    · exact h' h
    · exact absurd h' (not_lt.2 hy)
  · cases tf <;> simp [holds_ge, rhs_eps, relTransferVal, FinTransfer.relTransfer, sub_eq_add_neg]
  · rintro (h' | h')
    · exact h' h
    · omega
  · simp [holds_le, rhs_eps]
  · rintro (h' | h')
    · exact h' h
    · omega
  · simp [holds_ge, rhs_eps, sub_eq_add_neg]

/-- The optional constraints appear in the created instance under their names, with exactly the relations
of the indices at which they are active. -/
theorem C21_in_instance {count : ℕ → ℕ} {m : AbstractModel} {inst : AbstractModel.Instance}
    (hm : buildModel count md = .ok m) (hi : m.createInstance p = .ok inst) {name : String}
    {c : PyomoConstraint} (hn : named md name = some c) :
    ("constraint_" ++ name, (c.outcomes p).filterMap RuleOut.rel?) ∈ inst.active := by
  rw [(createInstance_eq hi).1]
  refine List.mem_map.2 ⟨("constraint_" ++ name, c), ?_, rfl⟩
  unfold buildModel at hm
  simp only at hm
  split at hm
  · simp only [Except.ok.injEq] at hm
    subst hm
    simp only
    unfold named at hn
    simp only [Option.map_eq_some_iff] at hn
    obtain ⟨⟨n, c'⟩, hf, rfl⟩ := hn
    have hmem := List.mem_of_find?_eq_some hf
    have hname := List.find?_some hf
    simp only [beq_iff_eq] at hname
    subst hname
    obtain ⟨i, hi, he⟩ := List.mem_iff_getElem.1 hmem
    refine List.mem_iff_getElem.2 ⟨i, by simpa [constraintNames_length] using hi, ?_⟩
    simp [constraintNames, he]
  · simp at hm
example : ∃ count m inst c, buildModel count Ex.m0 = .ok m ∧ m.createInstance Ex.p0 = .ok inst ∧
    named Ex.m0 "carbon_budget" = some c ∧
    ("constraint_" ++ "carbon_budget", (c.outcomes Ex.p0).filterMap RuleOut.rel?) ∈ inst.active := by
  obtain ⟨count, _, m, inst, hm, hi, _⟩ := Ex.sol0
  exact ⟨count, m, inst, _, hm, hi, rfl, C21_in_instance (name := "carbon_budget") hm hi rfl⟩

example : (2100 : ℝ) ≤ (Ex.p0).year (2 : ℕ) ∧ Ex.p0.budget = some 1600 ∧ 1 ≤ Ex.p0.perc_reversible_damages ∧
    Ex.p0.temperature_target = some 2 ∧ Ex.p0.inertia_global ≠ none ∧ Ex.p0.year (1 : ℕ) < 2100 := by
  refine ⟨by norm_num [Params.year, Ex.p0, Ex.ex], rfl, le_rfl, rfl, by simp [Ex.p0, Ex.ex], ?_⟩
  norm_num [Params.year, Ex.p0, Ex.ex]

end Mimosa
