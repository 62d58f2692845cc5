import Verif.Props.Economy

/-!
# C53: variables that only report results never restrict the optimisation
-/

set_option linter.unusedSimpArgs false
set_option linter.unusedVariables false

namespace Mimosa
open AbstractModel Rel

/-- The global variables that only report results: relative cumulative emissions, relative world costs,
reduction per cost unit and cost per reduction unit. -/
def Spec.reportsG : GVar → Bool
  | .emission_relative_cumulative | .global_rel_mitigation_costs
  | .global_emission_reduction_per_cost_unit | .global_cost_per_emission_reduction_unit => true
  | _ => false

/-- The regional ones: area under the MAC and the mortality variables. -/
def Spec.reportsR : RVar → Bool
  | .area_under_MAC | .mortality_oldest | .mortality_older | .mortality_young
  | .mortality_cost_oldest => true
  | _ => false

/-- The relation mentions no reporting variable. -/
def Spec.NoReport (ρ : Rel) : Prop :=
  ((∀ x ∈ ρ.lhs.gvars, Spec.reportsG x.1 = false) ∧ ∀ x ∈ ρ.lhs.rvars, Spec.reportsR x.1 = false) ∧
  ((∀ x ∈ ρ.rhs.gvars, Spec.reportsG x.1 = false) ∧ ∀ x ∈ ρ.rhs.rvars, Spec.reportsR x.1 = false)

/-- Two assignments agree on all variables that are not reporting variables. -/
def Spec.AgreeOffReports (σ τ : Env) : Prop :=
  (∀ v t, Spec.reportsG v = false → σ.g v t = τ.g v t) ∧
  (∀ v t r, Spec.reportsR v = false → σ.r v t r = τ.r v t r)

variable {md : Modules} {p : Params} {σ τ : Env}

/-! ## Expressions only depend on the variables they mention -/

theorem Expr.congr_vars (e : Expr) (hg : ∀ x ∈ e.gvars, σ.g x.1 x.2 = τ.g x.1 x.2)
    (hr : ∀ x ∈ e.rvars, σ.r x.1 x.2.1 x.2.2 = τ.r x.1 x.2.1 x.2.2) :
    e.eval σ = e.eval τ ∧ (e.Defined σ ↔ e.Defined τ) := by
  induction e with
  | const x => exact ⟨rfl, Iff.rfl⟩
  | g v t => exact ⟨hg (v, t) (by simp [Expr.gvars]), Iff.rfl⟩
  | r v t q => exact ⟨hr (v, t, q) (by simp [Expr.rvars]), Iff.rfl⟩
  | add a b iha ihb | sub a b iha ihb | mul a b iha ihb | div a b iha ihb | pow a b iha ihb =>
    obtain ⟨h1, h2⟩ := iha (fun x hx => hg x (by simp [Expr.gvars, hx]))
      (fun x hx => hr x (by simp [Expr.rvars, hx]))
    obtain ⟨h3, h4⟩ := ihb (fun x hx => hg x (by simp [Expr.gvars, hx]))
      (fun x hx => hr x (by simp [Expr.rvars, hx]))
    simp only [Expr.eval, Expr.Defined, h1, h2, h3, h4, and_self]
  | neg a iha | atan a iha | exp a iha =>
    obtain ⟨h1, h2⟩ := iha hg hr
    simp only [Expr.eval, Expr.Defined, h1, h2, and_self]

theorem Spec.NoReport.congr {ρ : Rel} (h : Spec.NoReport ρ) (ha : Spec.AgreeOffReports σ τ) :
    ρ.Holds σ ↔ ρ.Holds τ := by
  obtain ⟨⟨h1, h2⟩, h3, h4⟩ := h
  obtain ⟨a1, a2⟩ := ρ.lhs.congr_vars (σ := σ) (τ := τ) (fun x hx => ha.1 _ _ (h1 x hx))
    (fun x hx => ha.2 _ _ _ (h2 x hx))
  obtain ⟨b1, b2⟩ := ρ.rhs.congr_vars (σ := σ) (τ := τ) (fun x hx => ha.1 _ _ (h3 x hx))
    (fun x hx => ha.2 _ _ _ (h4 x hx))
  unfold Rel.Holds
  rw [a1, a2, b1, b2]

/-! ## Which constraints mention reporting variables -/

/-- A rule outcome mentions no reporting variable. -/
def CleanO : RuleOut → Prop
  | .rel ρ => Spec.NoReport ρ
  | _ => True

@[simp] theorem cleanO_rel (ρ : Rel) : CleanO (.rel ρ) ↔ Spec.NoReport ρ := Iff.rfl
@[simp] theorem cleanO_skip : CleanO .skip ↔ True := Iff.rfl
@[simp] theorem cleanO_raise (e : Err) : CleanO (.raise e) ↔ True := Iff.rfl
@[simp] theorem cleanO_onlyIf (c : Prop) (ρ : Rel) : CleanO (.onlyIf c ρ) ↔ (c → Spec.NoReport ρ) := by
  unfold RuleOut.onlyIf; split <;> simp_all

attribute [local simp] Spec.NoReport Expr.peq Expr.ple Expr.pge Spec.reportsG Spec.reportsR
  allOut_global allOut_globalInit allOut_regional allOut_regionalInit allOut_regionalSoft

theorem clean_slr : AllOut CleanO p SeaLevelRise.component.constraints := by
  unfold SeaLevelRise.component
  simp only
  simp only [allOut_cons _ _ _ (_ :: _)]
  simp +contextual [SeaLevelRise.rThermal, SeaLevelRise.rThermalInit, SeaLevelRise.rGsic,
    SeaLevelRise.rGsicInit, SeaLevelRise.rGis, SeaLevelRise.rGisInit, SeaLevelRise.rTotal,
    SeaLevelRise.slr_thermal_expansion, SeaLevelRise.slr_gsic, SeaLevelRise.slr_gis, or_imp, forall_and]

section
open EmissionTrade
theorem clean_trade (htr : md.trade ≠ .globalcostpool) :
    AllOut CleanO p (EmissionTrade.component md.trade).constraints := by
  cases htd : md.trade
  · simp [EmissionTrade.component, notrade]
  · exact absurd htd htr
  · unfold EmissionTrade.component emissiontrade
    simp only
    simp only [allOut_cons _ _ _ (_ :: _)]
    simp +contextual [htd, rGlobalCarbonprice, rSumBalance, rReductionBalance, rPaid, rAllowances,
      or_imp, forall_and]
end

section
open FinTransfer
theorem clean_transfer : AllOut CleanO p (FinTransfer.component md.transfer).constraints := by
  cases htd : md.transfer
  · simp [FinTransfer.component, notransfer]
  · unfold FinTransfer.component globaldamagepool
    simp only
    simp only [allOut_cons _ _ _ (_ :: _)]
    simp +contextual [htd, rZeroSum, rFirstYear, rMaxOwn, rRel, or_imp, forall_and]
end

section
open CobbDouglas
theorem clean_economy : AllOut CleanO p (CobbDouglas.component md.transfer).constraints := by
  unfold CobbDouglas.component
  simp only
  simp only [allOut_cons _ _ _ (_ :: _)]
  have hnet : ∀ t ≤ p.tf, ∀ r ∈ p.regions, CleanO (rGDPnet md.transfer p t r) := by
    cases htd : md.transfer <;> cases hi : p.ignore_damages <;>
    simp +contextual [htd, hi, rGDPnet, FinTransfer.transfer, or_imp, forall_and]
  simp only [allOut_regional _ _ (rGDPnet md.transfer)]
  refine ⟨?_, ?_, hnet, ?_⟩
  · simp +contextual [rGDPgross, calc_GDP, or_imp, forall_and]
  · simp +contextual [rGDPgrossInit]
  · simp +contextual [rInvestments, rConsumption, rCapital, rCapitalInit, calc_dKdt, or_imp, forall_and]
end

section
open Welfare
theorem clean_welfare : AllOut CleanO p (Welfare.component md.welfare).constraints := by
  cases htd : md.welfare
  all_goals
    unfold Welfare.component
    simp only
    simp only [allOut_cons _ _ _ (_ :: _)]
    simp +contextual [rUtilityWL, rWelfareWL, rUtilityCM, rWelfareCM, rUtilityIA, rWelfareIA, sumPop,
      calc_utility, calc_regional_utility, calc_global_utility, or_imp, forall_and]
end

section
open Objective
theorem clean_objective : AllOut CleanO p (Objective.component md.objective).constraints := by
  cases htd : md.objective
  all_goals
    unfold Objective.component
    simp only
    simp only [allOut_cons _ _ _ (_ :: _)]
    simp +contextual [rNPVutility, rNPVcosts, rNPVinit, or_imp, forall_and]
end

section
open EffortSharing
theorem clean_effort : AllOut CleanO p (EffortSharing.component md.transfer).constraints := by
  unfold EffortSharing.component
  simp only
  rw [allOut_cons, allOut_cons _ _ (equalTotalCosts _)]
  refine ⟨?_, ?_, ?_⟩
  · simp +contextual [equalMitigationCosts, rhs_eps, or_imp, forall_and]
  · cases htd : md.transfer <;>
    simp +contextual [htd, equalTotalCosts, FinTransfer.relTransfer, rhs_eps, or_imp, forall_and]
  · simp only [percapconv, allOut_regionalSoft]
    simp +contextual [rhs_eps, or_imp, forall_and]
end

/-! ## The completion -/

/-- Recompute the reporting variables from the others. -/
noncomputable def completeReports (p : Params) (σ : Env) : Env where
  g v t := match v with
    | .emission_relative_cumulative => if t = 0 then 1 else
        σ.g .cumulative_emissions t / p.cumulative_global_baseline_emissions t.toNat
    | .global_rel_mitigation_costs => p.sumR (fun r => σ.r .mitigation_costs t r) /
        p.sumR (fun r => σ.r .GDP_gross t r)
    | .global_emission_reduction_per_cost_unit =>
        p.sumR (fun r => σ.r .regional_emission_reduction t r) /
          soft_min (p.sumR fun r => σ.r .mitigation_costs t r) 1
    | .global_cost_per_emission_reduction_unit => p.sumR (fun r => σ.r .mitigation_costs t r) /
        soft_min (p.sumR fun r => σ.r .regional_emission_reduction t r) 1
    | v => σ.g v t
  r v t r := match v with
    | .area_under_MAC => σ.g .learning_factor t * p.MAC_scaling_factor r * p.MAC_gamma *
        σ.r .relative_abatement t r ^ (p.MAC_beta + 1) / (p.MAC_beta + 1) * σ.r .baseline t r
    | .mortality_oldest => p.mortality_oldest.a r + p.mortality_oldest.b r * σ.g .temperature t +
        p.mortality_oldest.c r * σ.g .temperature t ^ 2
    | .mortality_older => p.mortality_older.a r + p.mortality_older.b r * σ.g .temperature t +
        p.mortality_older.c r * σ.g .temperature t ^ 2
    | .mortality_young => p.mortality_young.a r + p.mortality_young.b r * σ.g .temperature t +
        p.mortality_young.c r * σ.g .temperature t ^ 2
    | .mortality_cost_oldest => (p.mortality_oldest.a r + p.mortality_oldest.b r * σ.g .temperature t +
        p.mortality_oldest.c r * σ.g .temperature t ^ 2) * p.population t.toNat r * 10000 *
          Damages.statistical_value_life_oldest
    | v => σ.r v t r

theorem completeReports_agree : Spec.AgreeOffReports (completeReports p σ) σ := by
  constructor
  · intro v t h; cases v <;> first | rfl | cases h
  · intro v t r h; cases v <;> first | rfl | cases h

/-- Reporting variables have no bounds. -/
theorem reports_unbounded (htr : md.trade ≠ .globalcostpool) (d : VarDecl) (hd : d ∈ allVars md) (hs : d.BoundsOk p σ)
    (ha : Spec.AgreeOffReports τ σ) : d.BoundsOk p τ := by
  cases d with
  | global v lb ub =>
    by_cases hv : Spec.reportsG v = false
    · intro t ht; rw [ha.1 v t hv]; exact hs t ht
    · obtain ⟨d, tr, f, w, o⟩ := md
      simp only [allVars, components, List.flatMap_cons, List.flatMap_nil, List.append_nil,
        List.mem_append] at hd
      intro t ht
      rcases hd with hd | hd | hd | hd | hd | hd | hd | hd | hd | hd
      · simp [Emissions.component, noBound] at hd
        rcases hd with ⟨rfl, h1, h2⟩ | ⟨rfl, h1, h2⟩ | ⟨rfl, h1, h2⟩ | ⟨rfl, h1, h2⟩ <;> simp [h1, h2, noBound]
      · simp [SeaLevelRise.component] at hd
        rcases hd with ⟨rfl, h1, h2⟩ | ⟨rfl, h1, h2⟩ | ⟨rfl, h1, h2⟩ | ⟨rfl, h1, h2⟩ <;> simp at hv
      · cases d <;> simp [damageComponent, Damages.coacch, Damages.nodamage] at hd
      · simp [Mitigation.component, noBound] at hd
        rcases hd with ⟨rfl, h1, h2⟩ | ⟨rfl, h1, h2⟩ | ⟨rfl, h1, h2⟩ | ⟨rfl, h1, h2⟩ | ⟨rfl, h1, h2⟩ |
          ⟨rfl, h1, h2⟩ <;> simp [h1, h2, noBound]
      · cases tr <;> simp [EmissionTrade.component, EmissionTrade.notrade, EmissionTrade.emissiontrade,
          EmissionTrade.globalcostpool, noBound] at hd
        simp [hd, noBound]
      · cases f <;> simp [FinTransfer.component, FinTransfer.notransfer,
          FinTransfer.globaldamagepool] at hd
      · simp [EffortSharing.component, noBound] at hd; simp [hd, noBound]
      · simp [CobbDouglas.component] at hd
      · cases w <;> simp [Welfare.component, noBound] at hd <;> simp [hd, noBound]
      · cases o <;> simp [Objective.component, noBound] at hd <;> simp [hd, noBound]
  | regional v lb ub =>
    by_cases hv : Spec.reportsR v = false
    · intro t ht r hr; rw [ha.2 v t r hv]; exact hs t ht r hr
    · obtain ⟨d, tr, f, w, o⟩ := md
      simp only [allVars, components, List.flatMap_cons, List.flatMap_nil, List.append_nil,
        List.mem_append] at hd
      intro t ht r hr
      rcases hd with hd | hd | hd | hd | hd | hd | hd | hd | hd | hd
      · simp [Emissions.component, noBound] at hd
        rcases hd with ⟨rfl, h1, h2⟩ | ⟨rfl, h1, h2⟩ | ⟨rfl, h1, h2⟩ | ⟨rfl, h1, h2⟩ <;> simp at hv
      · simp [SeaLevelRise.component] at hd
      · cases d
        · simp [damageComponent, Damages.coacch, noBound] at hd
          rcases hd with ⟨rfl, h1, h2⟩ | ⟨rfl, h1, h2⟩ | ⟨rfl, h1, h2⟩ | ⟨rfl, h1, h2⟩ | ⟨rfl, h1, h2⟩ |
            ⟨rfl, h1, h2⟩ | ⟨rfl, h1, h2⟩ <;> first | (simp at hv; done) | simp [h1, h2, noBound]
        · simp [damageComponent, Damages.nodamage, noBound] at hd
          simp [hd, noBound]
      · simp [Mitigation.component, noBound] at hd
        rcases hd with ⟨rfl, h1, h2⟩ | ⟨rfl, h1, h2⟩ | ⟨rfl, h1, h2⟩ | ⟨rfl, h1, h2⟩ <;>
          first | (simp at hv; done) | simp [h1, h2, noBound]
      · cases tr <;> simp [EmissionTrade.component, EmissionTrade.notrade, EmissionTrade.emissiontrade,
          EmissionTrade.globalcostpool, noBound] at hd
        · exact absurd rfl htr
        · rcases hd with ⟨rfl, h1, h2⟩ | ⟨rfl, h1, h2⟩ | ⟨rfl, h1, h2⟩ | ⟨rfl, h1, h2⟩ <;> simp at hv
      · cases f <;> simp [FinTransfer.component, FinTransfer.notransfer,
          FinTransfer.globaldamagepool] at hd
        rcases hd with ⟨rfl, h1, h2⟩ | ⟨rfl, h1, h2⟩ <;> simp at hv
      · simp [EffortSharing.component, noBound] at hd
      · simp [CobbDouglas.component] at hd
        rcases hd with ⟨rfl, h1, h2⟩ | ⟨rfl, h1, h2⟩ | ⟨rfl, h1, h2⟩ | ⟨rfl, h1, h2⟩ | ⟨rfl, h1, h2⟩ <;>
          simp at hv
      · cases w <;> simp [Welfare.component, noBound] at hd <;> simp [hd, noBound]
      · cases o <;> simp [Objective.component, noBound] at hd <;> simp [hd, noBound]

/-- `AllOut` form of satisfaction. -/
theorem satAll_iff_allOut {cs : List GeneralConstraint} : SatAll p σ cs ↔ AllOut (fun o => o.Sat σ) p cs := by
  simp only [SatAll, AllOut, GeneralConstraint.Sat, PyomoConstraint.Sat]

theorem AllOut.mono {P Q : RuleOut → Prop} {cs : List GeneralConstraint} (h : AllOut P p cs)
    (hpq : AllOut (fun o => P o → Q o) p cs) : AllOut Q p cs :=
  fun c hc nc hnc o ho => hpq c hc nc hnc o ho (h c hc nc hnc o ho)

theorem collect_clean {m : AbstractModel} {os : List RuleOut} {rs : List Rel} (h : m.collect p os = .ok rs) (σ : Env) :
    (∀ ρ ∈ rs, Spec.NoReport ρ → ρ.Holds σ) ↔ ∀ o ∈ os, CleanO o → o.Sat σ := by
  induction os generalizing rs with
  | nil => simp only [collect, Except.ok.injEq] at h; subst h; simp
  | cons o os ih =>
    cases o with
    | skip => simp only [collect] at h; simp [-Spec.NoReport, ih h]
    | raise e => simp [collect] at h
    | rel ρ =>
      simp only [collect, bind, Except.bind] at h
      cases h1 : m.checkRel p ρ with
      | error e => simp [h1] at h
      | ok u =>
        cases h2 : m.collect p os with
        | error e => simp [h1, h2, noBound] at h
        | ok rest =>
          simp only [h1, h2, pure, Except.pure, Except.ok.injEq] at h
          subst h
          simp [-Spec.NoReport, ih h2]

theorem collectAll_clean {m : AbstractModel} {cs : List (String × PyomoConstraint)} {act : List (String × List Rel)}
    (h : m.collectAll p cs = .ok act) (σ : Env) :
    (∀ nr ∈ act, ∀ ρ ∈ nr.2, Spec.NoReport ρ → ρ.Holds σ) ↔
      ∀ nc ∈ cs, ∀ o ∈ nc.2.outcomes p, CleanO o → o.Sat σ := by
  induction cs generalizing act with
  | nil => simp only [collectAll, Except.ok.injEq] at h; subst h; simp
  | cons c cs ih =>
    obtain ⟨n, c⟩ := c
    simp only [collectAll, bind, Except.bind] at h
    cases h1 : m.collect p (c.outcomes p) with
    | error e => simp [h1] at h
    | ok rels =>
      cases h2 : m.collectAll p cs with
      | error e => simp [h1, h2, noBound] at h
      | ok rest =>
        simp only [h1, h2, pure, Except.pure, Except.ok.injEq] at h
        subst h
        rw [List.forall_mem_cons, List.forall_mem_cons, ih h2, collect_clean h1 σ]

section
open Emissions
theorem complete_emissions (hcum : ∀ t < p.tf, p.cumulative_global_baseline_emissions (t + 1) ≠ 0)
    (h : AllOut (fun o => CleanO o → o.Sat (completeReports p σ)) p Emissions.component.constraints) :
    SatAll p (completeReports p σ) Emissions.component.constraints := by
  rw [satAll_iff_allOut]
  unfold Emissions.component at h ⊢
  simp only at h ⊢
  rw [allOut_append, allOut_append] at h ⊢
  obtain ⟨⟨h1, h2⟩, h3⟩ := h
  refine ⟨⟨?_, ?_⟩, ?_⟩
  · unfold emissionsConstraints at h1 ⊢
    simp only [allOut_cons _ _ _ (_ :: _)] at h1 ⊢
    obtain ⟨a1, a2, a3, a4, a5, a6, a7, a8, a9, a10⟩ := h1
    simp only [allOut_global, allOut_globalInit, allOut_regional, allOut_regionalInit] at a1 a2 a3 a4 a5 a6 a7 a8 ⊢
    refine ⟨?_, ?_, ?_, ?_, ?_, ?_, ?_, ?_, ?_, ?_⟩
    · intro t ht r hr
      apply a1 t ht r hr
      unfold rBaseline; split <;> simp
    · intro t ht r hr
      apply a2 t ht r hr
      unfold rRegionalAbatement; split <;> simp
    · intro r hr; apply a3 r hr; simp [rRegionalInit]
    · intro t ht r hr; apply a4 t ht r hr; simp [rReduction]
    · intro t ht; apply a5 t ht; simp +contextual [rGlobal, or_imp, forall_and]
    · apply a6; simp [rGlobalInit]
    · intro t ht; apply a7 t ht; unfold rCumulative; split <;> simp
    · apply a8; simp [rCumulativeInit]
    · intro t ht
      simp only [rRelCumulative, RuleOut.sat_onlyIf]
      intro h0
      obtain ⟨s, rfl⟩ : ∃ s, t = s + 1 := ⟨t - 1, by omega⟩
      have := hcum s ht
      refine ⟨trivial, by simp [Expr.peq, this], ?_⟩
      show (if ((s + 1 : ℕ) : ℤ) = 0 then (1 : ℝ) else _) = _
      rw [if_neg (by omega)]; rfl
    · simp only [rRelCumulativeInit, RuleOut.sat_rel]
      exact ⟨trivial, trivial, rfl⟩
  · refine AllOut.mono (P := CleanO) ?_ h2
    unfold temperatureConstraints
    simp only [allOut_cons _ _ _ (_ :: _)]
    refine ⟨?_, ?_, ?_⟩
    · simp +contextual [rTemperature]
    · simp +contextual [rTemperatureInit]
    · rw [allOut_global]; intro t ht
      unfold rTemperatureTarget; split <;> simp
  · refine AllOut.mono (P := CleanO) ?_ h3
    unfold inertiaBudgetConstraints
    simp only [allOut_cons _ _ _ (_ :: _)]
    simp only [allOut_global, allOut_regional]
    refine ⟨?_, ?_, ?_, ?_, ?_, ?_, ?_, ?_⟩
    · intro t ht; unfold rCarbonBudget
      split
      · split <;> simp +contextual [or_imp]
      · simp
    · intro t ht; simp [rCumulativeNonneg]
    · intro t ht; unfold rGlobalInertia; split <;> simp
    · intro t ht r hr; unfold rRegionalInertia; split <;> simp
    · intro t ht; unfold rGlobalMinLevel; split <;> simp
    · intro t ht r hr; unfold rRegionalMinLevel; split <;> simp
    · intro t ht r hr; simp [rNonIncreasing]
    · intro t ht; simp [rNetZero]
end

section
open Damages
theorem clean_form {x : Expr} {d : DamageCoeffs} {r : String} {x0 : Expr} {v : RVar} {t : ℕ} {k : ℝ}
    (hx : ∀ y ∈ x.gvars, Spec.reportsG y.1 = false) (hx' : ∀ y ∈ x.rvars, Spec.reportsR y.1 = false)
    (h0 : ∀ y ∈ x0.gvars, Spec.reportsG y.1 = false) (h0' : ∀ y ∈ x0.rvars, Spec.reportsR y.1 = false)
    (hv : Spec.reportsR v = false) :
    CleanO (ruleE (damage_fct x x0 d r) fun dam => rv v t r =ₚ num k * dam) := by
  rcases scope_form x d r with ⟨hk, E, he, hg, hr'⟩ | ⟨hk, he⟩
  · rcases scope_form x0 d r with ⟨_, E0, he0, hg0, hr0⟩ | ⟨hk0, he0⟩
    · simp only [damage_fct, he, he0, ruleE, cleanO_rel]
      refine ⟨by simp [-Spec.reportsR, hv], ?_, ?_⟩
      · simp only [Expr.peq, Expr.gvars_mul, Expr.gvars_sub, Expr.gvars_const, List.nil_append,
          List.mem_append, hg, hg0]
        rintro y (hy | hy); exacts [hx y hy, h0 y hy]
      · simp only [Expr.peq, Expr.rvars_mul, Expr.rvars_sub, Expr.rvars_const, List.nil_append,
          List.mem_append, hr', hr0]
        rintro y (hy | hy); exacts [hx' y hy, h0' y hy]
    · exact absurd hk hk0
  · simp [damage_fct, he, ruleE]

theorem complete_damages
    (h : AllOut (fun o => CleanO o → o.Sat (completeReports p σ)) p (damageComponent md.damage).constraints) :
    SatAll p (completeReports p σ) (damageComponent md.damage).constraints := by
  cases hd : md.damage
  · rw [hd] at h
    rw [satAll_iff_allOut]
    simp only [damageComponent, coacch, forall_const] at h ⊢
    simp only [allOut_cons _ _ _ (_ :: _)] at h ⊢
    obtain ⟨a1, a2, a3, a4, a5, a6, a7⟩ := h
    simp only [allOut_regional] at a1 a2 a3 ⊢
    refine ⟨?_, ?_, ?_, ?_, ?_, ?_, ?_⟩
    · intro t ht r hr; apply a1 t ht r hr; simp [rDamageCosts]
    · intro t ht r hr; apply a2 t ht r hr
      exact clean_form (by simp) (by simp) (by simp) (by simp) rfl
    · intro t ht r hr; apply a3 t ht r hr
      exact clean_form (by simp) (by simp) (by simp) (by simp) rfl
    · intro t ht r hr
      simp only [rMortOldest, RuleOut.sat_rel, holds_eq]
      refine ⟨trivial, by simp [mortalityRhs, powOk_two], ?_⟩
      simp [mortalityRhs, completeReports]
    · intro t ht r hr
      simp only [rMortOlder, RuleOut.sat_rel, holds_eq]
      refine ⟨trivial, by simp [mortalityRhs, powOk_two], ?_⟩
      simp [mortalityRhs, completeReports]
    · intro t ht r hr
      simp only [rMortYoung, RuleOut.sat_rel, holds_eq]
      refine ⟨trivial, by simp [mortalityRhs, powOk_two], ?_⟩
      simp [mortalityRhs, completeReports]
    · intro t ht r hr
      simp only [rMortCost, RuleOut.sat_rel, holds_eq]
      refine ⟨trivial, by simp, ?_⟩
      simp [completeReports]
  · rw [hd] at h
    rw [satAll_iff_allOut]
    refine AllOut.mono (P := CleanO) ?_ h
    simp +contextual [damageComponent, nodamage, rZero]
end

section
open Mitigation
theorem complete_mitigation
    (hgross : ∀ t ≤ p.tf, p.sumR (fun r => σ.R .GDP_gross t r) ≠ 0)
    (h : AllOut (fun o => CleanO o → o.Sat (completeReports p σ)) p (Mitigation.component md.trade).constraints) :
    SatAll p (completeReports p σ) (Mitigation.component md.trade).constraints := by
  rw [satAll_iff_allOut]
  unfold Mitigation.component at h ⊢
  simp only at h ⊢
  rw [allOut_append] at h ⊢
  obtain ⟨h1, h2⟩ := h
  constructor
  · unfold macConstraints at h1 ⊢
    simp only [allOut_cons _ _ _ (_ :: _)] at h1 ⊢
    obtain ⟨a1, a2, a3, a4, a5, a6, a7, a8, a9⟩ := h1
    simp only [allOut_global, allOut_regionalInit, allOut_regional] at a1 a2 a3 a5 a6 ⊢
    have c3 : ∀ t ≤ p.tf, ∀ r ∈ p.regions, (rMitigationCosts md.trade p t r).Sat (completeReports p σ) := by
      intro t ht r hr; apply a3 t ht r hr
      cases md.trade <;> simp [rMitigationCosts, mAC, AC, costBalance]
    refine ⟨?_, ?_, c3, ?_, ?_, ?_, ?_, ?_, ?_⟩
    · intro t ht r hr; apply a1 t ht r hr; simp [rCarbonprice, mMAC, MAC]
    · intro r hr; apply a2 r hr; simp [rInitCarbonprice]
    · intro t ht r hr
      have hdef : (mAC p t r).Defined (completeReports p σ) := by
        have := c3 t ht r hr
        simp only [rMitigationCosts, RuleOut.sat_rel, holds_eq, Expr.defined_add, Expr.defined_mul] at this
        exact this.2.1.1.1
      simp only [rArea, RuleOut.sat_rel, holds_eq, Expr.defined_mul]
      refine ⟨trivial, ⟨hdef, trivial⟩, ?_⟩
      rw [Expr.eval_mul, eval_mAC]
      rfl
    · intro t ht r hr; apply a5 t ht r hr; simp [rRelCosts]
    · intro t ht r hr; apply a6 t ht r hr; simp [rRelCostsMin]
    · intro t ht
      simp only [rGlobalRel, RuleOut.sat_rel, holds_eq]
      refine ⟨trivial, ?_, ?_⟩
      · simp only [Expr.defined_div, defined_sumRegions, eval_sumRegions, Expr.eval_r, Expr.defined_r]
        exact ⟨fun _ _ => trivial, fun _ _ => trivial, hgross t ht⟩
      · simp only [Expr.eval_div, eval_sumRegions, Expr.eval_r]
        rfl
    · intro t ht
      simp only [rReductionPerCost, RuleOut.sat_onlyIf, holds_eq]
      intro _
      refine ⟨trivial, ?_, ?_⟩
      · simp [eval_sumRegions, (soft_min_pos_one _).ne']
      · simp only [Expr.eval_div, eval_sumRegions, Expr.eval_r, eval_soft_min]
        rfl
    · intro t ht
      simp only [rCostPerReduction, RuleOut.sat_onlyIf, holds_eq]
      intro _
      refine ⟨trivial, ?_, ?_⟩
      · simp [eval_sumRegions, (soft_min_pos_one _).ne']
      · simp only [Expr.eval_div, eval_sumRegions, Expr.eval_r, eval_soft_min]
        rfl
  · refine AllOut.mono (P := CleanO) ?_ h2
    unfold learningConstraints
    simp only [allOut_cons _ _ _ (_ :: _)]
    simp +contextual [rLBD, rLOT, rLearning]
end

theorem of_clean {cs : List GeneralConstraint} (hc : AllOut CleanO p cs)
    (h : AllOut (fun o => CleanO o → o.Sat σ) p cs) : SatAll p σ cs :=
  satAll_iff_allOut.2 (hc.mono h)

/-- C53: take any assignment that respects the variable bounds and satisfies the constraints of the instance
in which no reporting variable occurs.  Then the reporting variables — and nothing else — can be changed so
that all constraints hold. -/
theorem C53_completable {count : ℕ → ℕ} {m : AbstractModel} {inst : AbstractModel.Instance}
    (htr : md.trade ≠ .globalcostpool)
    (hm : buildModel count md = .ok m) (hi : m.createInstance p = .ok inst) (hd : Spec.EconData p)
    (hreg : p.regions ≠ []) (hcum : ∀ t < p.tf, p.cumulative_global_baseline_emissions (t + 1) ≠ 0)
    (hb : ∀ d ∈ inst.vars, d.BoundsOk inst.params σ)
    (hs : ∀ nr ∈ inst.active, ∀ ρ ∈ nr.2, Spec.NoReport ρ → ρ.Holds σ) :
    ∃ σ', Spec.AgreeOffReports σ' σ ∧ inst.Feasible σ' := by
  have ha := completeReports_agree (p := p) (σ := σ)
  refine ⟨completeReports p σ, ha, ?_⟩
  obtain ⟨hv, _, hc, _, _⟩ := buildModel_vars hm
  unfold createInstance at hi
  split at hi
  case isFalse => simp at hi
  cases h2 : m.collectAll p m.constraints with
  | error e => simp [h2] at hi
  | ok act =>
    simp only [h2, Except.ok.injEq] at hi
    subst hi
    simp only at hb hs
    have hs' : ∀ nr ∈ act, ∀ ρ ∈ nr.2, Spec.NoReport ρ → ρ.Holds (completeReports p σ) :=
      fun nr hnr ρ hρ hn => (hn.congr ha).2 (hs nr hnr ρ hρ hn)
    rw [collectAll_clean h2, hc, mem_zip_constraints count _
      (fun c => ∀ o ∈ c.outcomes p, CleanO o → o.Sat _)] at hs'
    have hall : AllOut (fun o => CleanO o → o.Sat (completeReports p σ)) p (allConstraints md) := by
      intro c hcc nc hnc o ho
      exact hs' nc (List.mem_flatMap.2 ⟨c, hcc, hnc⟩) o ho
    refine ⟨fun d hd' => reports_unbounded (md := md) (σ := σ) htr d (hv ▸ hd') (hb d hd') ha, ?_⟩
    simp only
    rw [collectAll_ok_sat h2, hc, mem_zip_constraints count _ (fun c => c.Sat p _)]
    have : SatAll p (completeReports p σ) (allConstraints md) := by
      unfold allConstraints components at hall ⊢
      simp only [List.flatMap_cons, List.flatMap_nil, List.append_nil, allOut_append] at hall
      simp only [List.flatMap_cons, List.flatMap_nil, List.append_nil, satAll_append]
      obtain ⟨g1, g2, g3, g4, g5, g6, g7, g8, g9, g10⟩ := hall
      have he := of_clean clean_economy g8
      have hec := (economy_iff p (completeReports p σ) md.transfer).1 he
      have hgp : ∀ t ≤ p.tf, ∀ r ∈ p.regions, 0 < σ.R .GDP_gross t r := by
        intro t ht r hr
        show 0 < (completeReports p σ).R .GDP_gross t r
        cases t with
        | zero => rw [hec.gross_init r hr]; exact hd.gdp_pos 0 ht r hr
        | succ t =>
          rw [(hec.gross t ht r hr).2]
          have h1 : 0 < get_TFP_value p (t + 1) r := div_pos (hd.gdp_pos _ ht r hr) (calcGDP_pos' hd ht hr)
          have h2 := Real.rpow_pos_of_pos (hd.pop_pos _ ht r hr) (1 - p.alpha)
          have h3 := Real.rpow_pos_of_pos
            (soft_min_pos_ten ((completeReports p σ).R .capital_stock (t + 1) r)) p.alpha
          positivity
      exact ⟨complete_emissions hcum g1, of_clean clean_slr g2, complete_damages g3,
        complete_mitigation (fun t ht => (sumR_pos hreg (hgp t ht)).ne') g4,
        of_clean (clean_trade htr) g5, of_clean clean_transfer g6, of_clean clean_effort g7, he,
        of_clean clean_welfare g9, of_clean clean_objective g10⟩
    intro nc hnc
    obtain ⟨c, hcc, hnc⟩ := List.mem_flatMap.1 hnc
    exact this c hcc nc hnc

/-- C53: the reporting variables are determined by the others (the two ratios of reductions and costs only
after the first year: in the first year no constraint mentions them). -/
theorem C53_determined (h : Solution md p σ) (h' : Solution md p τ) (ha : Spec.AgreeOffReports σ τ)
    {t : ℕ} (ht : t ≤ p.tf) :
    σ.G .emission_relative_cumulative t = τ.G .emission_relative_cumulative t ∧
    σ.G .global_rel_mitigation_costs t = τ.G .global_rel_mitigation_costs t ∧
    (0 < t → σ.G .global_emission_reduction_per_cost_unit t =
        τ.G .global_emission_reduction_per_cost_unit t ∧
      σ.G .global_cost_per_emission_reduction_unit t = τ.G .global_cost_per_emission_reduction_unit t) ∧
    ∀ r ∈ p.regions, σ.R .area_under_MAC t r = τ.R .area_under_MAC t r ∧
      (md.damage = .COACCH → σ.R .mortality_oldest t r = τ.R .mortality_oldest t r ∧
        σ.R .mortality_older t r = τ.R .mortality_older t r ∧
        σ.R .mortality_young t r = τ.R .mortality_young t r ∧
        σ.R .mortality_cost_oldest t r = τ.R .mortality_cost_oldest t r) := by
  have e := h.eqs
  have e' := h'.eqs
  have gg : ∀ v t, Spec.reportsG v = false → σ.G v t = τ.G v t := fun v t hv => ha.1 v t hv
  have rr : ∀ v t r, Spec.reportsR v = false → σ.R v t r = τ.R v t r := fun v t r hv => ha.2 v t r hv
  have hcost : ∀ t, p.sumR (fun r => σ.R .mitigation_costs t r) = p.sumR (fun r => τ.R .mitigation_costs t r) :=
    fun t => sumR_congr fun r _ => rr .mitigation_costs t r rfl
  have hred : ∀ t, p.sumR (fun r => σ.R .regional_emission_reduction t r) =
      p.sumR (fun r => τ.R .regional_emission_reduction t r) :=
    fun t => sumR_congr fun r _ => rr .regional_emission_reduction t r rfl
  refine ⟨?_, ?_, ?_, ?_⟩
  · cases t with
    | zero => exact e.emissions.rel_cumulative_init.trans e'.emissions.rel_cumulative_init.symm
    | succ t => rw [(e.emissions.rel_cumulative t ht).2, (e'.emissions.rel_cumulative t ht).2,
        gg .cumulative_emissions _ rfl]
  · rw [(e.mitigation.global_rel t ht).2, (e'.mitigation.global_rel t ht).2, hcost]
    congr 1
    exact sumR_congr fun r _ => rr .GDP_gross t r rfl
  · intro h0
    obtain ⟨s, rfl⟩ : ∃ s, t = s + 1 := ⟨t - 1, by omega⟩
    rw [e.mitigation.reduction_per_cost s ht, e'.mitigation.reduction_per_cost s ht,
      e.mitigation.cost_per_reduction s ht, e'.mitigation.cost_per_reduction s ht, hcost, hred]
    exact ⟨rfl, rfl⟩
  · intro r hr
    constructor
    · rw [(e.mitigation.area t ht r hr).2, (e'.mitigation.area t ht r hr).2]
      simp only [acVal]
      rw [gg .learning_factor t rfl, rr .relative_abatement t r rfl, rr .baseline t r rfl]
    · intro hd
      have d := e.damages
      have d' := e'.damages
      rw [hd] at d d'
      have hT := gg .temperature t rfl
      have h1 : σ.R .mortality_oldest t r = τ.R .mortality_oldest t r := by
        rw [d.mort_oldest t ht r hr, d'.mort_oldest t ht r hr, hT]
      refine ⟨h1, ?_, ?_, ?_⟩
      · rw [d.mort_older t ht r hr, d'.mort_older t ht r hr, hT]
      · rw [d.mort_young t ht r hr, d'.mort_young t ht r hr, hT]
      · rw [d.mort_cost t ht r hr, d'.mort_cost t ht r hr, h1]

/-- The objective does not look at them either. -/
theorem C53_objective (ha : Spec.AgreeOffReports σ τ) :
    (Objective.objectiveExpr p).eval σ = (Objective.objectiveExpr p).eval τ := ha.1 _ _ rfl

end Mimosa
