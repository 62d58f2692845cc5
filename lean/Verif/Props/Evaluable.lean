import Verif.Props.Presolve
import Verif.Lib.Build

/-!
# C81: where the equations of the model can be evaluated
-/

set_option linter.unusedSimpArgs false

namespace Mimosa
open AbstractModel

/-! ## Specification -/

/-- Both sides of every constraint, and the objective, have a value at `σ`: no division by zero, no power outside its
domain. -/
structure Spec.Evaluable (inst : AbstractModel.Instance) (σ : Env) : Prop where
  constraints : ∀ c ∈ inst.rels, c.lhs.Defined σ ∧ c.rhs.Defined σ
  objective : inst.objective.Defined σ

/-- Logistic damage functions have a non-negative second coefficient. -/
def Spec.LogisticData (d : DamageCoeffs) (p : Params) : Prop :=
  ∀ r ∈ p.regions, Damages.strContains "Logistic" (d.form r) = true → 0 ≤ d.b2 r

/-- What is needed of the values: abatement is not negative, gross GDP is not zero, neither in a region nor in total. -/
structure Spec.Sensible (p : Params) (σ : Env) : Prop where
  abatement : ∀ t ≤ p.tf, ∀ r ∈ p.regions, 0 ≤ σ.R .relative_abatement t r
  gdp : ∀ t ≤ p.tf, ∀ r ∈ p.regions, σ.R .GDP_gross t r ≠ 0
  world : ∀ t ≤ p.tf, (p.regions.map fun r => σ.R .GDP_gross t r).sum ≠ 0

/-! ## Proof -/

/-- The relation, if there is one, can be evaluated. -/
def EvalOut (σ : Env) : RuleOut → Prop
  | .rel c => c.lhs.Defined σ ∧ c.rhs.Defined σ
  | _ => True

section
variable (σ : Env)
@[simp] theorem evalOut_rel (c : Rel) : EvalOut σ (.rel c) ↔ c.lhs.Defined σ ∧ c.rhs.Defined σ := Iff.rfl
@[simp] theorem evalOut_skip : EvalOut σ .skip ↔ True := Iff.rfl
@[simp] theorem evalOut_raise (e : Err) : EvalOut σ (.raise e) ↔ True := Iff.rfl
@[simp] theorem evalOut_onlyIf (q : Prop) (c : Rel) :
    EvalOut σ (.onlyIf q c) ↔ (q → c.lhs.Defined σ ∧ c.rhs.Defined σ) := by
  unfold RuleOut.onlyIf; split <;> simp_all
end

attribute [local simp] Expr.peq Expr.ple Expr.pge
  allOut_global allOut_globalInit allOut_regional allOut_regionalInit allOut_regionalSoft

variable {md : Modules} {p : Params} {σ : Env} {inst : AbstractModel.Instance}

theorem evaluable_slr : AllOut (EvalOut σ) p SeaLevelRise.component.constraints := by
  unfold SeaLevelRise.component
  simp only
  simp only [allOut_cons _ _ _ (_ :: _)]
  have h : Expr.PowOk (1 - SeaLevelRise.thermal_adjust_rate) (p.dt / 10) :=
    .of_pos (by unfold SeaLevelRise.thermal_adjust_rate; norm_num)
  have h' : SeaLevelRise.gis_init_ice_vol ≠ 0 := by unfold SeaLevelRise.gis_init_ice_vol; norm_num
  simp [SeaLevelRise.rThermal, SeaLevelRise.rThermalInit, SeaLevelRise.rGsic,
    SeaLevelRise.rGsicInit, SeaLevelRise.rGis, SeaLevelRise.rGisInit, SeaLevelRise.rTotal,
    SeaLevelRise.slr_thermal_expansion, SeaLevelRise.slr_gsic, SeaLevelRise.slr_gis, h, h']

section
open Mitigation
theorem evaluable_mitigation (hadm : p.Admissible) (hs : Spec.Sensible p σ) :
    AllOut (EvalOut σ) p (Mitigation.component md.trade).constraints := by
  unfold Mitigation.component macConstraints learningConstraints
  simp only [List.cons_append, List.nil_append]
  simp only [allOut_cons _ _ _ (_ :: _)]
  have hb := hadm.beta_pos
  have hpow : ∀ t ≤ p.tf, ∀ r ∈ p.regions, ∀ e : ℝ, 0 ≤ e → Expr.PowOk (σ.R .relative_abatement t r) e :=
    fun t ht r hr e he => (hs.abatement t ht r hr).lt_or_eq.elim (fun h => .inl h)
      (fun h => .inr (.inl ⟨h.symm, he⟩))
  have hM : ∀ t ≤ p.tf, ∀ r ∈ p.regions, (mMAC p t r).Defined σ := fun t ht r hr =>
    (defined_mMAC p σ t r).2 (hpow t ht r hr _ hb.le)
  have hA : ∀ t ≤ p.tf, ∀ r ∈ p.regions, (mAC p t r).Defined σ := fun t ht r hr =>
    (defined_mAC p σ t r).2 ⟨hpow t ht r hr _ (by linarith), by linarith⟩
  have hsp : ∀ x y : ℝ, Expr.PowOk (soft_min x 1) y := fun x y => .of_pos (soft_min_pos_one x)
  have hne : ∀ x : ℝ, soft_min x 1 ≠ 0 := fun x => (soft_min_pos_one x).ne'
  have hlot := hadm.lot
  simp +contextual [rCarbonprice, rInitCarbonprice, rMitigationCosts, rArea, rRelCosts, rRelCostsMin,
    rGlobalRel, rReductionPerCost, rCostPerReduction, rLBD, rLOT, rLearning, hM, hA, hsp, hne, defined_costBalance,
    hadm.lbd_scaling.ne']
  refine ⟨fun t ht r hr => hs.gdp t ht r hr, fun t ht => ?_, fun t ht => ⟨.of_pos hlot, fun h => absurd h hlot.ne'⟩⟩
  exact hs.world t ht
end

section
open EmissionTrade
theorem evaluable_trade (hadm : p.Admissible) (htr : md.trade ≠ .globalcostpool) :
    AllOut (EvalOut σ) p (EmissionTrade.component md.trade).constraints := by
  have hne : ∀ x : ℝ, soft_min x 1 ≠ 0 := fun x => (soft_min_pos_one x).ne'
  have hp : ∀ t ≤ p.tf, (p.regions.map fun r => p.population t r).sum ≠ 0 := fun t ht =>
    (sumR_pos hadm.regions_ne fun r hr => hadm.pop_pos t ht r hr).ne'
  cases htd : md.trade
  · simp [EmissionTrade.component, notrade]
  · exact absurd htd htr
  · unfold EmissionTrade.component emissiontrade
    simp only
    simp only [allOut_cons _ _ _ (_ :: _)]
    simp +contextual [htd, rGlobalCarbonprice, rSumBalance, rReductionBalance, rPaid, rAllowances, hne]
    exact hp
end

theorem evaluable_transfer : AllOut (EvalOut σ) p (FinTransfer.component md.transfer).constraints := by
  cases htd : md.transfer
  · simp [FinTransfer.component, FinTransfer.notransfer]
  · unfold FinTransfer.component FinTransfer.globaldamagepool
    simp only
    simp only [allOut_cons _ _ _ (_ :: _)]
    simp [FinTransfer.rZeroSum, FinTransfer.rFirstYear, FinTransfer.rMaxOwn, FinTransfer.rRel]

section
open CobbDouglas
theorem evaluable_economy (hadm : p.Admissible) : AllOut (EvalOut σ) p (CobbDouglas.component md.transfer).constraints := by
  unfold CobbDouglas.component
  simp only
  simp only [allOut_cons _ _ _ (_ :: _)]
  have h1 : ∀ x y : ℝ, Expr.PowOk (soft_min x 10) y := fun x y => .of_pos (soft_min_pos_ten x)
  have h2 : ∀ t ≤ p.tf, ∀ r ∈ p.regions, ∀ e : ℝ, Expr.PowOk (p.population t r) e :=
    fun t ht r hr e => .of_pos (hadm.pop_pos t ht r hr)
  have h3 : Expr.PowOk (1 - p.dk) p.dt := .of_pos (by linarith [hadm.dk_lt])
  have h4 : ∀ t ≤ p.tf, ∀ r ∈ p.regions, EvalOut σ (rGDPnet md.transfer p t r) := by
    intro t _ r _
    cases hi : p.ignore_damages <;> simp [rGDPnet, defined_transfer, hi]
  refine ⟨?_, ?_, (allOut_regional _ _ _ _).2 h4, ?_⟩
  · simp +contextual [rGDPgross, calc_GDP, h1, h2]
  · simp [rGDPgrossInit]
  · simp [rInvestments, rConsumption, rCapital, rCapitalInit, calc_dKdt, h3, hadm.dt_pos.ne']
end

section
open Welfare
theorem evaluable_welfare (hadm : p.Admissible) : AllOut (EvalOut σ) p (Welfare.component md.welfare).constraints := by
  have hsp : ∀ x y : ℝ, Expr.PowOk (soft_min x 1) y := fun x y => .of_pos (soft_min_pos_one x)
  have hp : ∀ t ≤ p.tf, (p.regions.map fun r => p.population t r).sum ≠ 0 := fun t ht =>
    (sumR_pos hadm.regions_ne fun r hr => hadm.pop_pos t ht r hr).ne'
  have hq : ∀ t ≤ p.tf, ∀ r ∈ p.regions, p.population t r ≠ 0 := fun t ht r hr => (hadm.pop_pos t ht r hr).ne'
  have he : 1 - p.elasmu ≠ 0 := sub_ne_zero.2 (Ne.symm hadm.elasmu)
  have hi : 1 - p.inequal_aversion ≠ 0 := sub_ne_zero.2 (Ne.symm hadm.inequal)
  cases hw : md.welfare
  all_goals
    unfold Welfare.component
    simp only
    simp only [allOut_cons _ _ _ (_ :: _)]
    simp +contextual [rUtilityWL, rWelfareWL, rUtilityCM, rWelfareCM, rUtilityIA, rWelfareIA, sumPop, calc_utility,
      calc_regional_utility, calc_global_utility, hsp, hq, he, hi]
    try exact hp
end

section
open Objective
theorem evaluable_objective : AllOut (EvalOut σ) p (Objective.component md.objective).constraints := by
  cases ho : md.objective
  all_goals
    unfold Objective.component
    simp only
    simp only [allOut_cons _ _ _ (_ :: _)]
    simp [rNPVutility, rNPVcosts, rNPVinit]
end

section
open EffortSharing
theorem evaluable_effort : AllOut (EvalOut σ) p (EffortSharing.component md.transfer).constraints := by
  unfold EffortSharing.component
  simp only
  rw [allOut_cons, allOut_cons _ _ (equalTotalCosts _)]
  refine ⟨?_, ?_, ?_⟩
  · simp [equalMitigationCosts, rhs_eps]
  · simp [equalTotalCosts, rhs_eps, defined_relTransfer]
  · simp [percapconv, rhs_eps]
end

section
open Damages
theorem evaluable_damage_rule {d : DamageCoeffs} {r : String} {v : RVar} {t : ℕ} {k : ℝ} {x x0 : Expr}
    (hx : x.Defined σ) (hx0 : x0.Defined σ) (hb : strContains "Logistic" (d.form r) = true → 0 ≤ d.b2 r) :
    EvalOut σ (ruleE (damage_fct x x0 d r) fun dam => rv v t r =ₚ num k * dam) := by
  have key : ∀ {e E : Expr}, e.Defined σ → functional_form e d r = .ok E → E.Defined σ := by
    intro e E he hE
    rcases functional_form_expr σ e he d r with ⟨E', h1, -, h3⟩ | ⟨h1, -⟩
    · rw [h1] at hE
      obtain rfl := Except.ok.inj hE
      refine h3.2 ?_
      unfold FormOk
      unfold functional_form at h1
      by_cases c1 : strContains "Linear" (d.form r) = true
      · exact .inl c1
      · by_cases c2 : strContains "Quadratic" (d.form r) = true
        · exact .inr (.inl c2)
        · by_cases c3 : strContains "Logistic" (d.form r) = true
          · have hb' := hb c3
            have : 0 ≤ d.b2 r * Real.exp (soft_max (-(d.b3 r) * e.eval σ) 10 (1 / 10)) :=
              mul_nonneg hb' (Real.exp_pos _).le
            exact .inr (.inr ⟨c3, by linarith, by linarith⟩)
          · rw [if_neg c1, if_neg c2, if_neg c3] at h1; cases h1
    · rw [h1] at hE; cases hE
  unfold damage_fct
  cases h1 : functional_form x d r with
  | error e => simp [ruleE]
  | ok a =>
    cases h2 : functional_form x0 d r with
    | error e => simp [ruleE]
    | ok b => simp [ruleE, key hx h1, key hx0 h2]

theorem evaluable_damages (h1 : Spec.LogisticData p.noslr p) (h2 : Spec.LogisticData p.slr p) :
    AllOut (EvalOut σ) p (damageComponent md.damage).constraints := by
  cases hd : md.damage
  · simp only [damageComponent, coacch]
    simp only [allOut_cons _ _ _ (_ :: _)]
    have hp : ∀ x : ℝ, Expr.PowOk x 2 := powOk_two
    refine ⟨by simp [rDamageCosts], (allOut_regional _ _ _ _).2 fun t ht r hr => ?_,
      (allOut_regional _ _ _ _).2 fun t ht r hr => ?_, by simp [rMortOldest, mortalityRhs, hp],
      by simp [rMortOlder, mortalityRhs, hp], by simp [rMortYoung, mortalityRhs, hp], by simp [rMortCost]⟩
    · exact evaluable_damage_rule (by simp) (by simp) (h1 r hr)
    · exact evaluable_damage_rule (by simp) (by simp) (h2 r hr)
  · simp [damageComponent, nodamage, rZero]
end

section
open Emissions
theorem evaluable_emissions (hadm : p.Admissible) : AllOut (EvalOut σ) p Emissions.component.constraints := by
  unfold Emissions.component
  simp only
  rw [allOut_append, allOut_append]
  have hb : ∀ t ≤ p.tf, ∀ r ∈ p.regions, EvalOut σ (rBaseline p t r) := by
    cases hc : p.use_carbon_intensity_for_baseline <;> simp [rBaseline, hc]
  have hra : ∀ t ≤ p.tf, ∀ r ∈ p.regions, EvalOut σ (rRegionalAbatement p t r) := by
    cases hc : p.use_carbon_intensity_for_baseline <;> simp [rRegionalAbatement, hc]
  have hcum : ∀ t ≤ p.tf, EvalOut σ (rCumulative p t) := by
    cases hc : p.cumulative_emissions_trapz <;> simp [rCumulative, hc]
  have hrel : ∀ t ≤ p.tf, EvalOut σ (rRelCumulative p t) := by
    intro t ht
    simp only [rRelCumulative, evalOut_onlyIf]
    intro h0
    obtain ⟨s, rfl⟩ := Nat.exists_eq_succ_of_ne_zero h0.ne'
    simpa using hadm.cum_ne s ht
  refine ⟨⟨?_, ?_⟩, ?_⟩
  · unfold emissionsConstraints
    simp only [allOut_cons _ _ _ (_ :: _)]
    refine ⟨(allOut_regional _ _ _ _).2 hb, (allOut_regional _ _ _ _).2 hra, ?_, ?_, ?_, ?_,
      (allOut_global _ _ _ _).2 hcum, ?_, (allOut_global _ _ _ _).2 hrel, ?_⟩
    · simp [rRegionalInit]
    · simp [rReduction]
    · simp [rGlobal]
    · simp [rGlobalInit]
    · simp [rCumulativeInit]
    · simp [rRelCumulativeInit]
  · unfold temperatureConstraints
    simp only [allOut_cons _ _ _ (_ :: _)]
    refine ⟨by simp [rTemperature], by simp [rTemperatureInit], ?_⟩
    cases hc : p.temperature_target <;> simp [rTemperatureTarget, hc]
  · unfold inertiaBudgetConstraints
    simp only [allOut_cons _ _ _ (_ :: _)]
    refine ⟨?_, by simp [rCumulativeNonneg], ?_, ?_, ?_, ?_, by simp [rNonIncreasing], by simp [rNetZero]⟩
    · rw [allOut_global]
      intro t _
      unfold rCarbonBudget
      split
      · rw [evalOut_onlyIf]
        intro _
        split <;> simp
      · trivial
    · cases hc : p.inertia_global <;> simp [rGlobalInertia, hc]
    · cases hc : p.inertia_regional <;> simp [rRegionalInertia, hc]
    · cases hc : p.global_min_level <;> simp [rGlobalMinLevel, hc]
    · cases hc : p.regional_min_level <;> simp [rRegionalMinLevel, hc]
end

theorem created_rels_mem (h : Spec.Created md p inst) : md.trade ≠ .globalcostpool := by
  obtain ⟨count, hc, m, h1, -⟩ := h
  exact fun h => by
    have := (buildModel_isOk hc md).1 ⟨m, h1⟩
    exact this h

/-- **C81.** The equations of a concrete model have a value wherever abatement is not negative and gross GDP is not
zero, whatever the values of all other variables. -/
theorem C81_evaluable (h : Spec.Created md p inst) (hadm : p.Admissible) (h1 : Spec.LogisticData p.noslr p)
    (h2 : Spec.LogisticData p.slr p) (hs : Spec.Sensible p σ) : Spec.Evaluable inst σ := by
  have htr := created_rels_mem h
  have hall : AllOut (EvalOut σ) p (allConstraints md) := by
    unfold allConstraints components
    simp only [List.flatMap_cons, List.flatMap_nil, List.append_nil]
    simp only [allOut_append]
    exact ⟨evaluable_emissions hadm, evaluable_slr, evaluable_damages h1 h2, evaluable_mitigation hadm hs, evaluable_trade hadm htr,
      evaluable_transfer, evaluable_effort, evaluable_economy hadm, evaluable_welfare hadm, evaluable_objective⟩
  refine ⟨fun c hc => ?_, ?_⟩
  · obtain ⟨k, hk, nc, hnc, ho⟩ := (mem_rels h c).1 hc
    exact hall k hk nc hnc _ ho
  · rw [(created_objective h).1]
    simp [Objective.objectiveExpr]

end Mimosa
