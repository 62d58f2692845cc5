import Verif.Props.Compare
import Verif.Props.Initial
import Verif.Props.Welfare
import Verif.Props.Optimum

/-!
# C87: the future depends on the past only through the present state

Two runs of the same model that are in the same *state* in some year — the same emissions in every region, the same
cumulative emissions, the same three contributions to sea-level rise and the same capital stocks — can be recombined: the
values of the one up to that year and the values of the other afterwards are again a solution.  Hence the rest of an
optimal run is the best way to go on from the state it is in, and its beginning the best way to get there (Bellman's
principle of optimality).
-/

set_option linter.unusedVariables false
set_option linter.unusedSimpArgs false
set_option linter.unusedSectionVars false

namespace Mimosa

variable {md : Modules} {p : Params} {σ τ : Env} {k : ℕ}

/-- Two runs are in the same state in year number `k`. -/
structure Spec.SameState (p : Params) (σ τ : Env) (k : ℕ) : Prop where
  emissions : ∀ r ∈ p.regions, σ.R .regional_emissions k r = τ.R .regional_emissions k r
  cumulative : σ.G .cumulative_emissions k = τ.G .cumulative_emissions k
  thermal : σ.G .slr_thermal k = τ.G .slr_thermal k
  glaciers : σ.G .slr_cumgsic k = τ.G .slr_cumgsic k
  greenland : σ.G .slr_cumgis k = τ.G .slr_cumgis k
  capital : ∀ r ∈ p.regions, σ.R .capital_stock k r = τ.R .capital_stock k r

/-- What year `t` contributes to the objective, before discounting: world welfare, or the world's costs. -/
noncomputable def Spec.yearlyValue (md : Modules) (p : Params) (σ : Env) (t : ℕ) : ℝ :=
  match md.objective with
  | .utility => σ.G .yearly_welfare t
  | .globalcosts => -((p.regions.map fun r => σ.R .mitigation_costs t r).sum +
      (p.regions.map fun r => σ.R .damage_costs t r * σ.R .GDP_gross t r).sum)

/-- The discounted value of the years after number `j` up to number `n` (larger is better). -/
noncomputable def Spec.valueBetween (md : Modules) (p : Params) (σ : Env) (j n : ℕ) : ℝ :=
  ∑ t ∈ Finset.Ioc j n, p.dt * Real.exp (-p.PRTP * (t * p.dt)) * Spec.yearlyValue md p σ t

namespace Splice

/-- The values of `σ` up to `k`, then those of `τ`. -/
noncomputable def env (σ τ : Env) (k : ℕ) : Env where
  g v t := if t ≤ k then σ.g v t else if v = .NPV then σ.g v k + (τ.g v t - τ.g v k) else τ.g v t
  r v t r := if t ≤ k then σ.r v t r else τ.r v t r

theorem gσ {t : ℕ} (h : t ≤ k) (v : GVar) : (env σ τ k).G v t = σ.G v t := if_pos (by exact_mod_cast h)
theorem rσ {t : ℕ} (h : t ≤ k) (v : RVar) (r : String) : (env σ τ k).R v t r = σ.R v t r := if_pos (by exact_mod_cast h)
theorem gτ {t : ℕ} (h : k < t) (v : GVar) (hv : v ≠ .NPV) : (env σ τ k).G v t = τ.G v t :=
  (if_neg (by exact_mod_cast Nat.not_le.2 h)).trans (if_neg hv)
theorem rτ {t : ℕ} (h : k < t) (v : RVar) (r : String) : (env σ τ k).R v t r = τ.R v t r :=
  if_neg (by exact_mod_cast Nat.not_le.2 h)
theorem npv {t : ℕ} (h : k ≤ t) : (env σ τ k).G .NPV t = σ.G .NPV k + (τ.G .NPV t - τ.G .NPV k) := by
  rcases Nat.lt_or_eq_of_le h with h | rfl
  · exact (if_neg (by exact_mod_cast Nat.not_le.2 h)).trans (if_pos rfl)
  · rw [gσ le_rfl]; ring

open Lean in
/-- Equations of one year. -/
local macro "year " a:term ", " b:term : tactic => `(tactic| (
  intro t ht
  by_cases htk : t ≤ k
  · have hh := $a t ht
    simpa only [gσ htk, rσ htk, macVal, acVal, AcOk, costBalanceVal, transferVal, relTransferVal] using hh
  · have hkt : k < t := by omega
    have hh := $b t ht
    simpa only [gτ hkt, rτ hkt, macVal, acVal, AcOk, costBalanceVal, transferVal, relTransferVal, ne_eq, reduceCtorEq,
      not_false_eq_true] using hh))

/-- Equations of the first year. -/
local macro "first0 " a:term : tactic => `(tactic| (
  have hh := $a
  simpa only [gσ (Nat.zero_le k), rσ (Nat.zero_le k)] using hh))

/-- The global values that enter the equations of the next year. -/
structure Carry (σ τ : Env) (k : ℕ) : Prop where
  cumulative : σ.G .cumulative_emissions k = τ.G .cumulative_emissions k
  thermal : σ.G .slr_thermal k = τ.G .slr_thermal k
  glaciers : σ.G .slr_cumgsic k = τ.G .slr_cumgsic k
  greenland : σ.G .slr_cumgis k = τ.G .slr_cumgis k
  emissions : σ.G .global_emissions k = τ.G .global_emissions k
  temperature : σ.G .temperature k = τ.G .temperature k
  sea : σ.G .total_SLR 0 = τ.G .total_SLR 0

theorem carry (h : Solution md p σ) (h' : Solution md p τ) (hk : k ≤ p.tf) (hs : Spec.SameState p σ τ k) :
    Carry σ τ k where
  cumulative := hs.cumulative
  thermal := hs.thermal
  glaciers := hs.glaciers
  greenland := hs.greenland
  emissions := by
    rw [C23_global_is_sum h hk, C23_global_is_sum h' hk]
    exact congrArg List.sum (List.map_congr_left hs.emissions)
  temperature := by rw [h.eqs.emissions.temperature k hk, h'.eqs.emissions.temperature k hk, hs.cumulative]
  sea := by
    have a := h.eqs.slr
    have b := h'.eqs.slr
    rw [a.total 0 (Nat.zero_le _), b.total 0 (Nat.zero_le _), a.thermal_init, b.thermal_init, a.gsic_init, b.gsic_init,
      a.gis_init, b.gis_init]

/-- Equations that connect a year with the next one. -/
local macro "step " c:term ", " a:term ", " b:term : tactic => `(tactic| (
  intro t ht
  by_cases htk : t + 1 ≤ k
  · have hh := $a t ht
    have h0 : t ≤ k := by omega
    simpa only [gσ htk, rσ htk, gσ h0, rσ h0] using hh
  · have hkt : k < t + 1 := by omega
    have hh := $b t ht
    by_cases h2 : k < t
    · simpa only [gτ hkt, rτ hkt, gτ h2, rτ h2, ne_eq, reduceCtorEq, not_false_eq_true] using hh
    · have e0 : t = k := by omega
      have hc : Carry σ τ t := e0.symm ▸ $c
      simpa only [gτ hkt, rτ hkt, gσ e0.le, rσ e0.le, hc.cumulative, hc.thermal, hc.glaciers, hc.greenland,
        hc.emissions, hc.temperature, ne_eq, reduceCtorEq, not_false_eq_true] using hh))

/-- Equations of a later year. -/
local macro "next " a:term ", " b:term : tactic => `(tactic| (
  intro t ht
  by_cases htk : t + 1 ≤ k
  · have hh := $a t ht
    simpa only [gσ htk, rσ htk] using hh
  · have hkt : k < t + 1 := by omega
    have hh := $b t ht
    simpa only [gτ hkt, rτ hkt, ne_eq, reduceCtorEq, not_false_eq_true] using hh))

section
variable (hc : Carry σ τ k)
include hc

theorem emissions (hE : ∀ r ∈ p.regions, σ.R .regional_emissions k r = τ.R .regional_emissions k r)
    (e : EmissionsEqs p σ) (e' : EmissionsEqs p τ) : EmissionsEqs p (env σ τ k) where
  baseline := by year e.baseline, e'.baseline
  reduction := by year e.reduction, e'.reduction
  temperature := by year e.temperature, e'.temperature
  temperature_target := by year e.temperature_target, e'.temperature_target
  budget := by year e.budget, e'.budget
  cumulative_nonneg := by year e.cumulative_nonneg, e'.cumulative_nonneg
  global_min_level := by year e.global_min_level, e'.global_min_level
  regional_min_level := by year e.regional_min_level, e'.regional_min_level
  net_zero := by year e.net_zero, e'.net_zero
  regional_emissions := by step hc, e.regional_emissions, e'.regional_emissions
  global_emissions := by step hc, e.global_emissions, e'.global_emissions
  cumulative := by step hc, e.cumulative, e'.cumulative
  rel_cumulative := by step hc, e.rel_cumulative, e'.rel_cumulative
  global_inertia := by step hc, e.global_inertia, e'.global_inertia
  regional_emissions_init := by first0 e.regional_emissions_init
  global_emissions_init := by first0 e.global_emissions_init
  cumulative_init := by first0 e.cumulative_init
  rel_cumulative_init := by first0 e.rel_cumulative_init
  temperature_init := by first0 e.temperature_init
  regional_inertia := by
    intro t ht r hr i hi
    by_cases htk : t + 1 ≤ k
    · rw [rσ htk, rσ (by omega)]; exact e.regional_inertia t ht r hr i hi
    · rw [rτ (by omega)]
      have hh := e'.regional_inertia t ht r hr i hi
      by_cases h2 : k < t
      · rw [rτ h2]; exact hh
      · obtain rfl : t = k := by omega
        rw [rσ le_rfl, hE r hr]; exact hh
  non_increasing := by
    intro t ht r hr hy hn
    by_cases htk : t ≤ k
    · rw [rσ htk, show (env σ τ k).r .regional_emissions ((t : ℤ) - 1) r = σ.r .regional_emissions ((t : ℤ) - 1) r from
        if_pos (by omega)]
      exact e.non_increasing t ht r hr hy hn
    · obtain ⟨s, rfl⟩ : ∃ s, t = s + 1 := ⟨t - 1, by omega⟩
      have hh := e'.non_increasing (s + 1) ht r hr hy hn
      rw [rτ (by omega)]
      rw [cast_succ_sub_one] at hh ⊢
      by_cases h2 : k < s
      · exact (congrArg (fun x => _ - x ≤ 0) (rτ h2 .regional_emissions r)).mpr hh
      · obtain rfl : s = k := by omega
        exact (congrArg (fun x => _ - x ≤ 0) ((rσ le_rfl .regional_emissions r).trans (hE r hr))).mpr hh

theorem slr (e : SlrEqs p σ) (e' : SlrEqs p τ) : SlrEqs p (env σ τ k) where
  thermal := by step hc, e.thermal, e'.thermal
  gsic := by step hc, e.gsic, e'.gsic
  gis := by step hc, e.gis, e'.gis
  thermal_init := by first0 e.thermal_init
  gsic_init := by first0 e.gsic_init
  gis_init := by first0 e.gis_init
  total := by year e.total, e'.total

theorem coacch (e : CoacchEqs p σ) (e' : CoacchEqs p τ) : CoacchEqs p (env σ τ k) where
  total := by year e.total, e'.total
  noslr := by year e.noslr, e'.noslr
  mort_oldest := by year e.mort_oldest, e'.mort_oldest
  mort_older := by year e.mort_older, e'.mort_older
  mort_young := by year e.mort_young, e'.mort_young
  mort_cost := by year e.mort_cost, e'.mort_cost
  slr := by
    intro t ht
    rw [gσ (Nat.zero_le k)]
    by_cases htk : t ≤ k
    · simpa only [gσ htk, rσ htk] using e.slr t ht
    · have hkt : k < t := by omega
      rw [hc.sea]
      simpa only [gτ hkt, rτ hkt, ne_eq, reduceCtorEq, not_false_eq_true] using e'.slr t ht

omit hc
theorem mitigation {m : TradeModule} (e : MitigationEqs p σ m) (e' : MitigationEqs p τ m) :
    MitigationEqs p (env σ τ k) m where
  carbonprice := by year e.carbonprice, e'.carbonprice
  mitigation_costs := by year e.mitigation_costs, e'.mitigation_costs
  area := by year e.area, e'.area
  rel_costs := by year e.rel_costs, e'.rel_costs
  rel_costs_min := by year e.rel_costs_min, e'.rel_costs_min
  global_rel := by year e.global_rel, e'.global_rel
  lbd := by year e.lbd, e'.lbd
  lot := by year e.lot, e'.lot
  learning := by year e.learning, e'.learning
  carbonprice_init := by first0 e.carbonprice_init
  reduction_per_cost := by next e.reduction_per_cost, e'.reduction_per_cost
  cost_per_reduction := by next e.cost_per_reduction, e'.cost_per_reduction

theorem trade (e : TradeEqs p σ) (e' : TradeEqs p τ) : TradeEqs p (env σ τ k) where
  price := by year e.price, e'.price
  zero_sum := by year e.zero_sum, e'.zero_sum
  reduction_balance := by next e.reduction_balance, e'.reduction_balance
  paid := by next e.paid, e'.paid
  allowances := by next e.allowances, e'.allowances

theorem pool (e : PoolEqs p σ) (e' : PoolEqs p τ) : PoolEqs p (env σ τ k) where
  zero_sum := by next e.zero_sum, e'.zero_sum
  first_year := by first0 e.first_year
  max_own := by year e.max_own, e'.max_own
  rel := by year e.rel, e'.rel

theorem effort {m : TransferModule} (e : EffortEqs p σ m) (e' : EffortEqs p τ m) : EffortEqs p (env σ τ k) m where
  mitigation := by year e.mitigation, e'.mitigation
  total := by cases m <;> year e.total, e'.total
  percap := by next e.percap, e'.percap

theorem economy {m : TransferModule} (hK : ∀ r ∈ p.regions, σ.R .capital_stock k r = τ.R .capital_stock k r)
    (e : EconomyEqs p σ m) (e' : EconomyEqs p τ m) : EconomyEqs p (env σ τ k) m where
  gross := by next e.gross, e'.gross
  gross_init := by first0 e.gross_init
  capital_init := by first0 e.capital_init
  net := by year e.net, e'.net
  investments := by year e.investments, e'.investments
  consumption := by year e.consumption, e'.consumption
  capital := by
    intro t ht r hr
    by_cases htk : t + 1 ≤ k
    · rw [rσ htk, rσ htk, rσ (by omega)]; exact e.capital t ht r hr
    · have hh := e'.capital t ht r hr
      have hkt : k < t + 1 := by omega
      rw [rτ hkt, rτ hkt]
      by_cases h2 : k < t
      · rw [rτ h2]; exact hh
      · obtain rfl : t = k := by omega
        rw [rσ le_rfl, hK r hr]; exact hh

theorem welfare {m : WelfareModule} (e : WelfareEqs p σ m) (e' : WelfareEqs p τ m) : WelfareEqs p (env σ τ k) m := by
  cases m <;> exact ⟨by year e.1, e'.1, by year e.2, e'.2⟩

theorem objective {m : ObjectiveModule} (e : ObjectiveEqs p σ m) (e' : ObjectiveEqs p τ m) :
    ObjectiveEqs p (env σ τ k) m := by
  cases m <;> refine ⟨fun t ht => ?_, (gσ (Nat.zero_le k) _).trans e.2⟩
  all_goals
    by_cases htk : t + 1 ≤ k
    · have h0 : t ≤ k := by omega
      simpa only [gσ htk, rσ htk, gσ h0] using e.1 t ht
    · have hkt : k < t + 1 := by omega
      have hh := e'.1 t ht
      rw [npv (by omega), npv (by omega), hh]
      simp only [gτ hkt, rτ hkt, ne_eq, reduceCtorEq, not_false_eq_true]
      ring

end

/-- The net present value is unbounded. -/
theorem npv_free {lb ub : Params → Option ℝ} (hd : VarDecl.global .NPV lb ub ∈ allVars md) (p : Params) :
    lb p = none ∧ ub p = none := by
  obtain ⟨d, t, f, w, o⟩ := md
  have hd' : VarDecl.global .NPV lb ub ∈ Emissions.component.vars ++ SeaLevelRise.component.vars ++
      (damageComponent d).vars ++ (Mitigation.component t).vars ++ (EmissionTrade.component t).vars ++
      (FinTransfer.component f).vars ++ (EffortSharing.component f).vars ++ (CobbDouglas.component f).vars ++
      (Welfare.component w).vars ++ (Objective.component o).vars := by
    simpa [allVars, components] using hd
  cases d <;> cases t <;> cases f <;> cases w <;> cases o <;>
    simp [Emissions.component, SeaLevelRise.component, damageComponent, Damages.coacch, Damages.nodamage,
      Mitigation.component, EmissionTrade.component, EmissionTrade.notrade, EmissionTrade.emissiontrade,
      EmissionTrade.globalcostpool, FinTransfer.component, FinTransfer.notransfer, FinTransfer.globaldamagepool,
      EffortSharing.component, CobbDouglas.component, Welfare.component, Objective.component] at hd' <;>
    (obtain ⟨rfl, rfl⟩ := hd'; exact ⟨rfl, rfl⟩)

theorem bounds (hb : ∀ d ∈ allVars md, d.BoundsOk p σ) (hb' : ∀ d ∈ allVars md, d.BoundsOk p τ) :
    ∀ d ∈ allVars md, d.BoundsOk p (env σ τ k) := by
  intro d hd
  have a := hb d hd
  have b := hb' d hd
  cases d with
  | regional v lb ub =>
    intro t ht r hr
    by_cases htk : t ≤ k
    · rw [show (env σ τ k).r v t r = σ.r v t r from rσ htk v r]; exact a t ht r hr
    · rw [show (env σ τ k).r v t r = τ.r v t r from rτ (by omega) v r]; exact b t ht r hr
  | global v lb ub =>
    by_cases hv : v = .NPV
    · subst hv
      have hn : lb p = none ∧ ub p = none := npv_free hd p
      intro t ht
      rw [hn.1, hn.2]
      exact ⟨(fun _ h => by cases h), (fun _ h => by cases h)⟩
    · intro t ht
      by_cases htk : t ≤ k
      · rw [show (env σ τ k).g v t = σ.g v t from gσ htk v]; exact a t ht
      · rw [show (env σ τ k).g v t = τ.g v t from gτ (by omega) v hv]; exact b t ht

theorem solution (h : Solution md p σ) (h' : Solution md p τ) (hk : k ≤ p.tf) (hs : Spec.SameState p σ τ k) :
    Solution md p (env σ τ k) := by
  have hc := carry h h' hk hs
  obtain ⟨htr, hr, c, hb, e⟩ := solution_char.1 h
  obtain ⟨-, -, -, hb', e'⟩ := solution_char.1 h'
  refine solution_char.2 ⟨htr, hr, c, bounds hb hb', emissions hc hs.emissions e.emissions e'.emissions,
    slr hc e.slr e'.slr, ?_, mitigation e.mitigation e'.mitigation, ?_, ?_, effort e.effort e'.effort,
    economy hs.capital e.economy e'.economy, welfare e.welfare e'.welfare, objective e.objective e'.objective⟩
  · have a := e.damages
    have b := e'.damages
    revert a b
    cases md.damage
    · exact fun a b => coacch hc a b
    · intro a b
      show ∀ t ≤ p.tf, _
      intro t ht r hr
      by_cases htk : t ≤ k
      · rw [rσ htk]; exact a t ht r hr
      · rw [rτ (by omega)]; exact b t ht r hr
  · have a := e.trade
    have b := e'.trade
    revert a b htr
    cases md.trade
    · exact fun _ _ _ => trivial
    · exact fun h => absurd rfl h
    · exact fun _ a b => trade a b
  · have a := e.transfer
    have b := e'.transfer
    revert a b
    cases md.transfer
    · exact fun _ _ => trivial
    · exact fun a b => pool a b

/-- The objective is the discounted value of all years but the first. -/
theorem objective_value (h : Solution md p σ) : Spec.objectiveValue md p σ = Spec.valueBetween md p σ 0 p.tf := by
  have key : ∀ f : ℕ → ℝ, Spec.discountedSum p f p.tf =
      ∑ t ∈ Finset.Ioc 0 p.tf, p.dt * Real.exp (-p.PRTP * (t * p.dt)) * f t := by
    intro f
    unfold Spec.discountedSum
    dsimp only
    rw [Finset.range_eq_Ico, Finset.sum_Ico_add' (fun t : ℕ => p.dt *
      Real.exp (-p.PRTP * ((p.beginyear + (t : ℝ) * p.dt) - p.beginyear)) * f t) 0 p.tf 1]
    refine Finset.sum_congr (by ext x; simp; omega) fun t _ => ?_
    rw [add_sub_cancel_left]
  unfold Spec.objectiveValue Spec.valueBetween Spec.yearlyValue
  cases ho : md.objective
  · show σ.G .NPV p.tf = _
    rw [C45_utility h ho le_rfl, key]
  · show -σ.G .NPV p.tf = _
    rw [C45_globalcosts h ho le_rfl, key, ← Finset.sum_neg_distrib]
    exact Finset.sum_congr rfl fun t _ => by ring

theorem value_split (hk : k ≤ p.tf) (ρ : Env) : Spec.valueBetween md p ρ 0 p.tf =
    Spec.valueBetween md p ρ 0 k + Spec.valueBetween md p ρ k p.tf := by
  unfold Spec.valueBetween
  rw [← Finset.Ioc_union_Ioc_eq_Ioc (Nat.zero_le k) hk, Finset.sum_union (Finset.Ioc_disjoint_Ioc_of_le le_rfl)]

theorem value_env (hk : k ≤ p.tf) : Spec.valueBetween md p (env σ τ k) 0 p.tf =
    Spec.valueBetween md p σ 0 k + Spec.valueBetween md p τ k p.tf := by
  rw [value_split hk]
  congr 1 <;> refine Finset.sum_congr rfl fun t ht => ?_ <;> congr 1 <;> have ht := Finset.mem_Ioc.1 ht <;>
    unfold Spec.yearlyValue <;> cases md.objective
  · exact gσ ht.2 _
  · simp only [rσ ht.2]
  · exact gτ ht.1 _ (by decide)
  · simp only [rτ ht.1]

end Splice

/-- **C87.** Two runs in the same state can be recombined there: the values of the first up to that year, and those of the
second afterwards, are a solution, whose objective is the sum of the two parts. -/
theorem C87_recombine (h : Solution md p σ) (h' : Solution md p τ) (hk : k ≤ p.tf) (hs : Spec.SameState p σ τ k) :
    ∃ ρ, Solution md p ρ ∧ (∀ t ≤ k, (∀ v, ρ.G v t = σ.G v t) ∧ ∀ v r, ρ.R v t r = σ.R v t r) ∧
      (∀ t, k < t → (∀ v, v ≠ .NPV → ρ.G v t = τ.G v t) ∧ ∀ v r, ρ.R v t r = τ.R v t r) ∧
      Spec.objectiveValue md p ρ = Spec.valueBetween md p σ 0 k + Spec.valueBetween md p τ k p.tf := by
  have hρ := Splice.solution h h' hk hs
  exact ⟨Splice.env σ τ k, hρ, fun t ht => ⟨Splice.gσ ht, Splice.rσ ht⟩, fun t ht => ⟨Splice.gτ ht, Splice.rτ ht⟩,
    (Splice.objective_value hρ).trans (Splice.value_env hk)⟩

/-- **C87.** The rest of an optimal run is the best way to go on from its state: no other run, however it came into that
state, makes more of the remaining years. -/
theorem C87_best_future (h : Optimal md p σ) (h' : Solution md p τ) (hk : k ≤ p.tf) (hs : Spec.SameState p σ τ k) :
    Spec.valueBetween md p τ k p.tf ≤ Spec.valueBetween md p σ k p.tf := by
  obtain ⟨ρ, hρ, -, -, hv⟩ := C87_recombine h.1 h' hk hs
  have := h.best hρ
  rw [hv, Splice.objective_value h.1, Splice.value_split hk] at this
  linarith

/-- **C87.** … and its beginning is the best way to that state. -/
theorem C87_best_past (h : Optimal md p σ) (h' : Solution md p τ) (hk : k ≤ p.tf) (hs : Spec.SameState p σ τ k) :
    Spec.valueBetween md p τ 0 k ≤ Spec.valueBetween md p σ 0 k := by
  have hs' : Spec.SameState p τ σ k := ⟨fun r hr => (hs.emissions r hr).symm, hs.cumulative.symm, hs.thermal.symm,
    hs.glaciers.symm, hs.greenland.symm, fun r hr => (hs.capital r hr).symm⟩
  obtain ⟨ρ, hρ, -, -, hv⟩ := C87_recombine h' h.1 hk hs'
  have := h.best hρ
  rw [hv, Splice.objective_value h.1, Splice.value_split hk] at this
  linarith

/-- **C87.** Two optimal runs through the same state are worth the same before and after it, and their recombination is
optimal too. -/
theorem C87_optima_recombine (h : Optimal md p σ) (h' : Optimal md p τ) (hk : k ≤ p.tf) (hs : Spec.SameState p σ τ k) :
    Spec.valueBetween md p τ 0 k = Spec.valueBetween md p σ 0 k ∧
    Spec.valueBetween md p τ k p.tf = Spec.valueBetween md p σ k p.tf ∧
    ∃ ρ, Optimal md p ρ ∧ (∀ t ≤ k, ∀ r ∈ p.regions, ρ.R .relative_abatement t r = σ.R .relative_abatement t r) ∧
      ∀ t, k < t → ∀ r ∈ p.regions, ρ.R .relative_abatement t r = τ.R .relative_abatement t r := by
  have f := C87_best_future h h'.1 hk hs
  have b := C87_best_past h h'.1 hk hs
  have e := le_antisymm (h'.best h.1) (h.best h'.1)
  have v := Splice.objective_value h.1
  have v' := Splice.objective_value h'.1
  rw [Splice.value_split hk] at v v'
  refine ⟨by linarith, by linarith, ?_⟩
  obtain ⟨ρ, hρ, h1, h2, hv⟩ := C87_recombine h.1 h'.1 hk hs
  refine ⟨ρ, ⟨hρ, fun υ hυ => ?_⟩, fun t ht r _ => (h1 t ht).2 _ r, fun t ht r _ => (h2 t ht).2 _ r⟩
  have hb := h.best hυ
  have hval : Spec.objectiveValue md p υ ≤ Spec.objectiveValue md p ρ := by linarith
  unfold Spec.objectiveValue at hval
  revert hval
  cases md.objective
  · exact id
  · exact fun h => neg_le_neg_iff.1 h

/-- **C87.** Without trade and transfers and with an exogenous baseline, the state is determined by the policy so far: runs
that abate the same up to year number `k` are in the same state then (see C54 for the condition on the costs). -/
theorem C87_same_policy_same_state (h : Solution md p σ) (h' : Solution md p τ) (hk : k ≤ p.tf)
    (ha : ∀ t ≤ k, ∀ r ∈ p.regions, σ.R .relative_abatement t r = τ.R .relative_abatement t r)
    (hex : p.use_carbon_intensity_for_baseline = false) (htr : md.trade = .notrade) (hf : md.transfer = .notransfer)
    (hd : Spec.EconData p) (h0 : 0 ≤ p.alpha) (h1 : p.alpha ≤ 1)
    (hK : ∀ t < k, ∀ r ∈ p.regions, p.dt * (p.sr * σ.R .mitigation_costs (t + 1) r) < σ.R .capital_stock t r) :
    Spec.SameState p σ τ k := by
  have s := C61_shorter_horizon h hk
  have s' := C61_shorter_horizon h' hk
  have hd' : Spec.EconData { p with tf := k } := { hd with
    gdp_pos := fun t ht => hd.gdp_pos t (le_trans ht hk)
    pop_pos := fun t ht => hd.pop_pos t (le_trans ht hk) }
  have hem := C54_emissions s s' ha hex (t := k) le_rfl
  have c := C54_climate s s' ha hex (t := k) le_rfl
  exact ⟨fun r hr => (hem.1 r hr).1, c.1, c.2.2.1, c.2.2.2.1, c.2.2.2.2.1,
    fun r hr => (C54_economy s s' ha hex htr hf hd' h0 h1 hK (t := k) le_rfl hr).1⟩

/-- **C87.** So there is no reason to deviate from an optimal policy later: every feasible policy that follows it up to some
year makes at most as much of the remaining years. -/
theorem C87_stay_the_course (h : Optimal md p σ) (h' : Solution md p τ) (hk : k ≤ p.tf)
    (ha : ∀ t ≤ k, ∀ r ∈ p.regions, σ.R .relative_abatement t r = τ.R .relative_abatement t r)
    (hex : p.use_carbon_intensity_for_baseline = false) (htr : md.trade = .notrade) (hf : md.transfer = .notransfer)
    (hd : Spec.EconData p) (h0 : 0 ≤ p.alpha) (h1 : p.alpha ≤ 1)
    (hK : ∀ t < k, ∀ r ∈ p.regions, p.dt * (p.sr * σ.R .mitigation_costs (t + 1) r) < σ.R .capital_stock t r) :
    Spec.valueBetween md p τ k p.tf ≤ Spec.valueBetween md p σ k p.tf :=
  C87_best_future h h' hk (C87_same_policy_same_state h.1 h' hk ha hex htr hf hd h0 h1 hK)

/-! ## A concrete case: doing nothing is optimal without damages and targets, and starting late to abate is not better -/

namespace Ex

/-- No abatement in the first two years of the model, half of the emissions afterwards. -/
noncomputable def later : ℕ → String → ℝ := fun t _ => if t ≤ 1 then 0 else 1 / 2

theorem mild_later : Mild later := by
  refine ⟨fun _ => by simp [later], fun t _ => ?_, fun t _ => ?_⟩
  · unfold later; split <;> norm_num
  · unfold later; split <;> split <;> first | omega | norm_num

/-- The optimum and the late policy are in the same state in the second year of the model. -/
theorem later_state (w : WelfareModule) (o : ObjectiveModule) {σ : Env} (h : Optimal (md0 .nodamage w o) free σ) :
    Spec.SameState free σ ((Path.x later).env (md0 .nodamage w o) free) 1 := by
  have key := (C66_baseline_run (md := md0 .nodamage w o) free_admissible ⟨fun _ => .inl rfl, fun _ => rfl, by simp [free, ex]⟩
    (by norm_num [free, ex]) rfl free_ordinary (by simp [md0]) (by simp [free, ex]) (by norm_num [free, ex])
    (by simp [free, ex]) (.inl rfl) (fun _ => free_baseline) (fun h => by cases h)).2 σ h
  refine C87_same_policy_same_state h.1 (free_sol _ w o mild_later) (by norm_num [free, ex]) (fun t ht r hr => ?_) rfl rfl rfl
    free_admissible.econData free_admissible.alpha_nonneg (by norm_num [free, ex]) (fun t ht r hr => ?_)
  · rw [show ((Path.x later).env (md0 .nodamage w o) free).R .relative_abatement t r = later t r from rfl, later, if_pos ht]
    rcases Nat.eq_zero_or_pos t with rfl | h0
    · exact (C32_no_abatement h.1 ⟨by norm_num [free, ex], by norm_num [free, ex], by simp [free, ex],
        by norm_num [free, ex]⟩ hr).1
    · exact (key t (by have : free.tf = 3 := rfl
                       omega) h0 r hr).2.2.1
  · rw [(key (t + 1) (by have : free.tf = 3 := rfl
                         omega) (by omega) r hr).1]
    obtain rfl : t = 0 := by omega
    rw [C37_initial h.1 hr, mul_zero, mul_zero]
    exact mul_pos (free_admissible.capital_pos r hr) (free_admissible.gdp_pos 0 (Nat.zero_le _) r hr)

/-- Both are feasible, they share a state, and recombining them is another policy; carrying on without abatement is at least
as good. -/
example (w : WelfareModule) (o : ObjectiveModule) {σ : Env} (h : Optimal (md0 .nodamage w o) free σ) :=
  C87_recombine h.1 (free_sol _ w o mild_later) (by norm_num [free, ex]) (later_state w o h)
example (w : WelfareModule) (o : ObjectiveModule) : ∃ σ, Optimal (md0 .nodamage w o) free σ ∧
    Spec.valueBetween (md0 .nodamage w o) free ((Path.x later).env (md0 .nodamage w o) free) 1 3 ≤
      Spec.valueBetween (md0 .nodamage w o) free σ 1 3 := by
  obtain ⟨σ, h⟩ := C65_optimum_exists_exogenous (md := md0 .nodamage w o) free_admissible free_ordinary.forms rfl
    ⟨_, free_sol _ w o mild_half⟩
  exact ⟨σ, h, C87_best_future h (free_sol _ w o mild_later) (by norm_num [free, ex]) (later_state w o h)⟩
example (w : WelfareModule) (o : ObjectiveModule) {σ : Env} (h : Optimal (md0 .nodamage w o) free σ) :=
  C87_best_past h (free_sol _ w o mild_later) (by norm_num [free, ex]) (later_state w o h)
example (w : WelfareModule) (o : ObjectiveModule) {σ τ : Env} (h : Optimal (md0 .nodamage w o) free σ)
    (h' : Optimal (md0 .nodamage w o) free τ) :=
  C87_optima_recombine h h' (k := 1) (by norm_num [free, ex])
    (let a := later_state w o h
     let b := later_state w o h'
     ⟨fun r hr => (a.emissions r hr).trans (b.emissions r hr).symm, a.cumulative.trans b.cumulative.symm,
      a.thermal.trans b.thermal.symm, a.glaciers.trans b.glaciers.symm, a.greenland.trans b.greenland.symm,
      fun r hr => (a.capital r hr).trans (b.capital r hr).symm⟩)
end Ex

end Mimosa
