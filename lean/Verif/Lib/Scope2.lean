import Verif.Lib.Scope

/-! # Scoping of each component -/

set_option linter.unusedSimpArgs false

namespace Mimosa
open AbstractModel

variable {md : Modules} {p : Params}

/-- `t - 1` is a valid index for `0 < t ≤ tf`. -/
theorem pred_ok {t tf : ℕ} (h0 : t > 0) (ht : t ≤ tf) : (1 : ℤ) ≤ t ∧ (t : ℤ) ≤ tf + 1 := by omega

attribute [local simp] Rel.Scoped Expr.peq Expr.ple Expr.pge Modules.declaresG Modules.declaresR
  allOut_global allOut_globalInit allOut_regional allOut_regionalInit allOut_regionalSoft

/-- close the remaining index arithmetic -/
local macro "finish_scope" : tactic =>
  `(tactic| all_goals (repeat' (first | apply And.intro | (intro; skip) | omega | assumption)))

theorem scope_slr : AllOut (OkFor md p) p SeaLevelRise.component.constraints := by
  unfold SeaLevelRise.component
  simp only
  simp only [allOut_cons _ _ _ (_ :: _)]
  simp +contextual [SeaLevelRise.rThermal, SeaLevelRise.rThermalInit, SeaLevelRise.rGsic,
    SeaLevelRise.rGsicInit, SeaLevelRise.rGis, SeaLevelRise.rGisInit, SeaLevelRise.rTotal,
    SeaLevelRise.slr_thermal_expansion, SeaLevelRise.slr_gsic, SeaLevelRise.slr_gis, or_imp, forall_and]
  finish_scope

section
open Mitigation
theorem scope_mitigation (htr : md.trade ≠ .globalcostpool) :
    AllOut (OkFor md p) p (Mitigation.component md.trade).constraints := by
  unfold Mitigation.component macConstraints learningConstraints
  simp only [List.cons_append, List.nil_append]
  simp only [allOut_cons _ _ _ (_ :: _)]
  cases htd : md.trade
  all_goals
  simp +contextual [htd, rCarbonprice, rInitCarbonprice, rMitigationCosts, rArea, rRelCosts, rRelCostsMin,
    rGlobalRel, rReductionPerCost, rCostPerReduction, rLBD, rLOT, rLearning, mMAC, mAC, MAC, AC,
    costBalance, or_imp, forall_and]
  finish_scope
end

section
open EmissionTrade
theorem scope_trade (hr : p.regions ≠ []) (htr : md.trade ≠ .globalcostpool) :
    AllOut (OkFor md p) p (EmissionTrade.component md.trade).constraints := by
  obtain ⟨r0, hr0⟩ := List.exists_mem_of_ne_nil _ hr
  cases htd : md.trade
  · simp [EmissionTrade.component, notrade]
  · exact absurd htd htr
  · unfold EmissionTrade.component emissiontrade
    simp only
    simp only [allOut_cons _ _ _ (_ :: _)]
    simp +contextual [htd, rGlobalCarbonprice, rSumBalance, rReductionBalance, rPaid, rAllowances,
      or_imp, forall_and]
    finish_scope
    all_goals exact ⟨r0, hr0⟩
end

section
open FinTransfer
theorem scope_transfer (hr : p.regions ≠ []) :
    AllOut (OkFor md p) p (FinTransfer.component md.transfer).constraints := by
  obtain ⟨r0, hr0⟩ := List.exists_mem_of_ne_nil _ hr
  cases htd : md.transfer
  · simp [FinTransfer.component, notransfer]
  · unfold FinTransfer.component globaldamagepool
    simp only
    simp only [allOut_cons _ _ _ (_ :: _)]
    simp +contextual [htd, rZeroSum, rFirstYear, rMaxOwn, rRel, or_imp, forall_and]
    finish_scope
    all_goals exact ⟨r0, hr0⟩
end

section
open CobbDouglas
theorem scope_economy : AllOut (OkFor md p) p (CobbDouglas.component md.transfer).constraints := by
  unfold CobbDouglas.component
  simp only
  simp only [allOut_cons _ _ _ (_ :: _)]
  have hnet : ∀ t ≤ p.tf, ∀ r ∈ p.regions, OkFor md p (rGDPnet md.transfer p t r) := by
    cases htd : md.transfer <;> cases hi : p.ignore_damages <;>
    simp +contextual [htd, hi, rGDPnet, FinTransfer.transfer, or_imp, forall_and]
  simp only [allOut_regional _ _ (rGDPnet md.transfer)]
  refine ⟨?_, ?_, hnet, ?_⟩
  · simp +contextual [rGDPgross, calc_GDP, or_imp, forall_and]
  · simp +contextual [rGDPgrossInit]
  · simp +contextual [rInvestments, rConsumption, rCapital, rCapitalInit, calc_dKdt, or_imp, forall_and]
    finish_scope
end

section
open Welfare
theorem scope_welfare : AllOut (OkFor md p) p (Welfare.component md.welfare).constraints := by
  cases htd : md.welfare
  all_goals
    unfold Welfare.component
    simp only
    simp only [allOut_cons _ _ _ (_ :: _)]
    simp +contextual [rUtilityWL, rWelfareWL, rUtilityCM, rWelfareCM, rUtilityIA, rWelfareIA, sumPop,
      calc_utility, calc_regional_utility, calc_global_utility, or_imp, forall_and]
    finish_scope
end

section
open Objective
theorem scope_objective : AllOut (OkFor md p) p (Objective.component md.objective).constraints := by
  cases htd : md.objective
  all_goals
    unfold Objective.component
    simp only
    simp only [allOut_cons _ _ _ (_ :: _)]
    simp +contextual [rNPVutility, rNPVcosts, rNPVinit, or_imp, forall_and]
    finish_scope
end

section
open EffortSharing
/-- The per-capita-convergence regime refers to the allowances, which only `emissiontrade` declares. -/
theorem scope_effort (hr : p.regions ≠ []) :
    AllOut (OkFor md p) p (EffortSharing.component md.transfer).constraints ↔
      (p.effort_sharing_regime = "per_cap_convergence" → md.trade = .emissiontrade ∨ p.tf = 0) := by
  obtain ⟨r0, hr0⟩ := List.exists_mem_of_ne_nil _ hr
  unfold EffortSharing.component
  simp only
  rw [allOut_cons, allOut_cons _ _ (equalTotalCosts _)]
  have h1 : AllOut (OkFor md p) p [equalMitigationCosts] := by
    simp +contextual [equalMitigationCosts, rhs_eps, or_imp, forall_and]
  have h2 : AllOut (OkFor md p) p [equalTotalCosts md.transfer] := by
    cases htd : md.transfer <;>
    simp +contextual [htd, equalTotalCosts, FinTransfer.relTransfer, rhs_eps, or_imp, forall_and]
  rw [and_iff_right h1, and_iff_right h2]
  have h3 : AllOut (OkFor md p) p [percapconv] ↔ (∀ t ≤ p.tf, ∀ r ∈ p.regions,
      p.effort_sharing_regime = "per_cap_convergence" → t ≠ 0 → md.trade = .emissiontrade) := by
    simp only [percapconv, allOut_regionalSoft]
    cases hm : md.trade
    all_goals
    simp +contextual [hm, rhs_eps, or_imp, forall_and]
  rw [h3]
  constructor
  · intro h hp
    by_cases h0 : p.tf = 0
    · exact Or.inr h0
    · exact Or.inl (h p.tf le_rfl r0 hr0 hp h0)
  · intro h t ht r hr hp h0
    rcases h hp with h | h
    · exact h
    · omega
end

section
open Damages

/-- The functional form of a damage table is one the code knows. -/
def KnownForm (d : DamageCoeffs) (r : String) : Prop :=
  strContains "Linear" (d.form r) = true ∨ strContains "Quadratic" (d.form r) = true ∨
    strContains "Logistic" (d.form r) = true

theorem scope_form (x : Expr) (d : DamageCoeffs) (r : String) :
    (KnownForm d r ∧ ∃ E, functional_form x d r = .ok E ∧ (∀ y, y ∈ E.gvars ↔ y ∈ x.gvars) ∧
      (∀ y, y ∈ E.rvars ↔ y ∈ x.rvars)) ∨
    (¬ KnownForm d r ∧ functional_form x d r = .error .notImplemented) := by
  unfold functional_form KnownForm
  by_cases h1 : strContains "Linear" (d.form r) = true
  · left; exact ⟨Or.inl h1, _, if_pos h1, by simp, by simp⟩
  · by_cases h2 : strContains "Quadratic" (d.form r) = true
    · left; refine ⟨Or.inr (Or.inl h2), _, by rw [if_neg h1, if_pos h2], by simp, by simp⟩
    · by_cases h3 : strContains "Logistic" (d.form r) = true
      · left
        exact ⟨Or.inr (Or.inr h3), _, by rw [if_neg h1, if_neg h2, if_pos h3],
          by simp [logistic], by simp [logistic]⟩
      · right; simp [h1, h2, h3]

theorem scope_damage_rule {d : DamageCoeffs} {r : String} {v : RVar} {t : ℕ} {k : ℝ} {x x0 : Expr}
    (ht : t ≤ p.tf) (hr : r ∈ p.regions) (hv : md.declaresR v = true)
    (hx : ∀ y, y ∈ x.gvars ∨ y ∈ x0.gvars → md.declaresG y.1 = true ∧ 0 ≤ y.2 ∧ y.2 ≤ p.tf)
    (hx' : ∀ y, ¬ (y ∈ x.rvars ∨ y ∈ x0.rvars)) :
    OkFor md p (ruleE (damage_fct x x0 d r) fun dam => rv v t r =ₚ num k * dam) ↔ KnownForm d r := by
  rcases scope_form x d r with ⟨hk, E, he, hg, hr'⟩ | ⟨hk, he⟩
  · rcases scope_form x0 d r with ⟨_, E0, he0, hg0, hr0⟩ | ⟨hk0, he0⟩
    · simp only [damage_fct, he, he0, ruleE, okFor_rel, hk, iff_true]
      refine ⟨by simp [-Modules.declaresR, hv, ht, hr], ⟨?_, ?_⟩, ?_⟩
      · simp only [Expr.peq, Expr.gvars_mul, Expr.gvars_sub, Expr.gvars_const, List.nil_append,
          List.mem_append, hg, hg0]
        exact hx
      · simp only [Expr.peq, Expr.rvars_mul, Expr.rvars_sub, Expr.rvars_const, List.nil_append,
          List.mem_append, hr', hr0]
        exact fun y hy => absurd hy (hx' y)
      · right; exact ⟨(v, t, r), by simp⟩
    · exact absurd hk hk0
  · simp [damage_fct, he, ruleE, hk]

theorem scope_damages : AllOut (OkFor md p) p (damageComponent md.damage).constraints ↔
    (md.damage = .COACCH → ∀ r ∈ p.regions, KnownForm p.noslr r ∧ KnownForm p.slr r) := by
  cases hd : md.damage
  · simp only [damageComponent, coacch, forall_const]
    simp only [allOut_cons _ _ _ (_ :: _)]
    have h1 : AllOut (OkFor md p) p [.regional rDamageCosts (some "damage_costs")] := by
      simp +contextual [rDamageCosts, hd, or_imp]
    have h4 : AllOut (OkFor md p) p [.regional rMortOldest none] := by
      simp +contextual [rMortOldest, mortalityRhs, hd, or_imp]
    have h5 : AllOut (OkFor md p) p [.regional rMortOlder none] := by
      simp +contextual [rMortOlder, mortalityRhs, hd, or_imp]
    have h6 : AllOut (OkFor md p) p [.regional rMortYoung none] := by
      simp +contextual [rMortYoung, mortalityRhs, hd, or_imp]
    have h7 : AllOut (OkFor md p) p [.regional rMortCost none] := by
      simp +contextual [rMortCost, hd, or_imp]
    have h2 : ∀ t ≤ p.tf, ∀ r ∈ p.regions, (OkFor md p (rNonSlr p t r) ↔ KnownForm p.noslr r) := by
      intro t ht r hr
      exact scope_damage_rule ht hr (by simp [hd]) (by simp [ht]) (by simp)
    have h3 : ∀ t ≤ p.tf, ∀ r ∈ p.regions, (OkFor md p (rSlr p t r) ↔ KnownForm p.slr r) := by
      intro t ht r hr
      exact scope_damage_rule ht hr (by simp [hd])
        (by rintro ⟨v, s⟩; simp; rintro (⟨rfl, rfl⟩ | ⟨rfl, rfl⟩) <;> simp [ht]) (by simp)
    rw [and_iff_right h1]
    constructor
    · rintro ⟨ha, hb, _⟩ r hr
      rw [allOut_regional] at ha hb
      exact ⟨(h2 0 (Nat.zero_le _) r hr).1 (ha 0 (Nat.zero_le _) r hr),
        (h3 0 (Nat.zero_le _) r hr).1 (hb 0 (Nat.zero_le _) r hr)⟩
    · intro h
      exact ⟨(allOut_regional _ _ _ _).2 fun t ht r hr => (h2 t ht r hr).2 (h r hr).1,
        (allOut_regional _ _ _ _).2 fun t ht r hr => (h3 t ht r hr).2 (h r hr).2, h4, h5, h6, h7⟩
  · simp +contextual [damageComponent, nodamage, rZero]
end

section
open Emissions

theorem scope_emissions (hr : p.regions ≠ []) : AllOut (OkFor md p) p Emissions.component.constraints ↔
    (p.budget ≠ none → p.perc_reversible_damages < 1 → ∀ t ≤ p.tf, p.year t < 2100) ∧
    (p.non_increasing_emissions_after_2100 = true → p.year (-1) ≤ 2100) := by
  obtain ⟨r0, hr0⟩ := List.exists_mem_of_ne_nil _ hr
  unfold Emissions.component
  simp only
  rw [allOut_append, allOut_append]
  have hb : ∀ t ≤ p.tf, ∀ r ∈ p.regions, OkFor md p (rBaseline p t r) := by
    cases hc : p.use_carbon_intensity_for_baseline <;>
    simp +contextual [rBaseline, hc, or_imp]
  have hra : ∀ t ≤ p.tf, ∀ r ∈ p.regions, OkFor md p (rRegionalAbatement p t r) := by
    cases hc : p.use_carbon_intensity_for_baseline <;>
    simp +contextual [rRegionalAbatement, hc, or_imp]
  have hcum : ∀ t ≤ p.tf, OkFor md p (rCumulative p t) := by
    cases hc : p.cumulative_emissions_trapz <;>
    simp +contextual [rCumulative, hc, or_imp] <;> finish_scope
  have h1 : AllOut (OkFor md p) p emissionsConstraints := by
    unfold emissionsConstraints
    simp only [allOut_cons _ _ _ (_ :: _)]
    refine ⟨(allOut_regional _ _ _ _).2 hb, (allOut_regional _ _ _ _).2 hra, ?_, ?_, ?_, ?_,
      (allOut_global _ _ _ _).2 hcum, ?_⟩
    · simp +contextual [rRegionalInit]
    · simp +contextual [rReduction, or_imp]
    · simp +contextual [rGlobal]
    · simp +contextual [rGlobalInit]
    · simp +contextual [rCumulativeInit, rRelCumulative, rRelCumulativeInit]
  have htt : ∀ t ≤ p.tf, OkFor md p (rTemperatureTarget p t) := by
    cases hc : p.temperature_target <;>
    simp +contextual [rTemperatureTarget, hc]
  have h2 : AllOut (OkFor md p) p temperatureConstraints := by
    unfold temperatureConstraints
    simp only [allOut_cons _ _ _ (_ :: _)]
    refine ⟨?_, ?_, (allOut_global _ _ _ _).2 htt⟩
    · simp +contextual [rTemperature]
    · simp +contextual [rTemperatureInit]
  have hgi : ∀ t ≤ p.tf, OkFor md p (rGlobalInertia p t) := by
    cases hc : p.inertia_global <;>
    simp +contextual [rGlobalInertia, hc, or_imp] <;> finish_scope
  have hri : ∀ t ≤ p.tf, ∀ r ∈ p.regions, OkFor md p (rRegionalInertia p t r) := by
    cases hc : p.inertia_regional <;>
    simp +contextual [rRegionalInertia, hc, or_imp] <;> finish_scope
  have hgm : ∀ t ≤ p.tf, OkFor md p (rGlobalMinLevel p t) := by
    cases hc : p.global_min_level <;> simp +contextual [rGlobalMinLevel, hc]
  have hrm : ∀ t ≤ p.tf, ∀ r ∈ p.regions, OkFor md p (rRegionalMinLevel p t r) := by
    cases hc : p.regional_min_level <;> simp +contextual [rRegionalMinLevel, hc]
  have hcn : ∀ t ≤ p.tf, OkFor md p (rCumulativeNonneg p t) := by
    simp +contextual [rCumulativeNonneg]
  have hnz : ∀ t ≤ p.tf, OkFor md p (rNetZero p t) := by
    simp +contextual [rNetZero]
  have hbud : (∀ t ≤ p.tf, OkFor md p (rCarbonBudget p t)) ↔
      (p.budget ≠ none → p.perc_reversible_damages < 1 → ∀ t ≤ p.tf, p.year t < 2100) := by
    cases hc : p.budget
    · simp [rCarbonBudget, hc]
    · by_cases hp : p.perc_reversible_damages < 1
      · simp only [rCarbonBudget, hc, hp, if_true, okFor_onlyIf]
        simp +contextual [or_imp, forall_and]
      · simp only [rCarbonBudget, hc, hp, if_false, okFor_onlyIf]
        simp +contextual [or_imp, forall_and]
  have hni : (∀ t ≤ p.tf, ∀ r ∈ p.regions, OkFor md p (rNonIncreasing p t r)) ↔
      (p.non_increasing_emissions_after_2100 = true → p.year (-1) ≤ 2100) := by
    simp only [rNonIncreasing, okFor_onlyIf]
    constructor
    · intro h hn
      by_contra hy
      have := h 0 (Nat.zero_le _) r0 hr0 ⟨by simpa using hy, hn⟩
      simp at this
    · intro h t ht r hr ⟨hy, hn⟩
      have h0 := h hn
      have ht0 : t ≠ 0 := by
        rintro rfl
        simp at hy
        linarith
      obtain ⟨s, rfl⟩ := Nat.exists_eq_succ_of_ne_zero ht0
      have hs : (s : ℤ) ≤ p.tf := by omega
      simp [ht, hr, or_imp, hs]
      rintro v t' q
      constructor
      · rintro rfl rfl rfl; simp [hr]; omega
      · rintro rfl rfl rfl; simp [hr]; omega
  rw [and_iff_right ⟨h1, h2⟩]
  unfold inertiaBudgetConstraints
  simp only [allOut_cons _ _ _ (_ :: _)]
  simp only [allOut_global, allOut_regional, hbud, hni]
  constructor
  · rintro ⟨a, _, _, _, _, _, b, _⟩; exact ⟨a, b⟩
  · rintro ⟨a, b⟩; exact ⟨a, hcn, hgi, hri, hgm, hrm, b, hnz⟩
end

/-- The exact condition under which an instance of a buildable model can be created. -/
theorem scope_all (hr : p.regions ≠ []) (htr : md.trade ≠ .globalcostpool) :
    AllOut (OkFor md p) p (allConstraints md) ↔
      (p.budget ≠ none → p.perc_reversible_damages < 1 → ∀ t ≤ p.tf, p.year t < 2100) ∧
      (p.non_increasing_emissions_after_2100 = true → p.year (-1) ≤ 2100) ∧
      (md.damage = .COACCH → ∀ r ∈ p.regions, KnownForm p.noslr r ∧ KnownForm p.slr r) ∧
      (p.effort_sharing_regime = "per_cap_convergence" → md.trade = .emissiontrade ∨ p.tf = 0) := by
  unfold allConstraints components
  simp only [List.flatMap_cons, List.flatMap_nil, List.append_nil]
  simp only [allOut_append, scope_emissions hr, scope_damages, scope_effort hr, scope_slr,
    scope_mitigation htr, scope_trade hr htr, scope_transfer hr, scope_economy, scope_welfare,
    scope_objective, true_and, and_true, and_assoc]

end Mimosa
