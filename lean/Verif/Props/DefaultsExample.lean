import Verif.Props.Defaults

/-!
# C86: a concrete run with default economy and a budget of 600 GtCO2
-/

namespace Mimosa
namespace Ex

/-- The facts about the run of `quietSetup`. -/
structure Quiet (p : Params) : Prop where
  regions : p.regions = ["USA"]
  tf : p.tf = 26
  dt : p.dt = 5
  start : p.beginyear = 2020
  population : ∀ t ≤ 26, p.population t "USA" = 10
  gdp : ∀ t ≤ 26, p.baseline_GDP t "USA" = 10
  emissions : ∀ t ≤ 26, p.baseline_emissions t "USA" = 10
  kappa : p.MAC_scaling_factor "USA" = 1 / 1000
  factor : p.init_capitalstock_factor "USA" = 4
  alpha : p.alpha = 0.3
  dk : p.dk = 0.05
  sr : p.sr = 0.21
  beta : p.MAC_beta = 3
  gamma : p.MAC_gamma = 2.601
  rate : p.LBD_rate = 0.82
  scaling : p.LBD_scaling = 40
  lot : p.LOT_rate = 0
  T0 : p.T0 = 1.16
  TCRE : p.TCRE = 0.00062
  budget : p.budget = some 600
  target : p.temperature_target = none
  inertia_global : p.inertia_global = none
  inertia_regional : p.inertia_regional = some (-0.05)
  min_global : p.global_min_level = some (-10)
  min_regional : p.regional_min_level = some (-10)
  floor : p.rel_mitigation_costs_min_level = 0
  reversible : p.perc_reversible_damages = 1
  regime : p.effort_sharing_regime = "noregime"
  trapz : p.cumulative_emissions_trapz = true
  exogenous : p.use_carbon_intensity_for_baseline = false
  damage_scale : p.damage_scale_factor = 0

theorem quiet : ∃ params tree md entries, Setup exampleBuiltins (fun _ => false) quietFiles quietWorld
    quietUser (afterHistory quietWorld []) params tree md entries ∧ Quiet (paramsOf entries) := by
  obtain ⟨params, tree, md, entries, S, h1, h2, h3, h4⟩ := quietSetup
  have hu := quietUser_wf
  have N := C86_numbers hu S
  have Q := C86_quantities hu S
  have L := C86_limits hu S
  have E := quiet_run.economy
  obtain ⟨y1, y2, y3⟩ := C86_default_years hu S (quiet_noCustom _) (by
    intro k hk
    simp only [List.mem_cons, List.not_mem_nil, or_false] at hk
    rcases hk with rfl | rfl | rfl <;> rfl)
  have hP := quiet_pint
  refine ⟨params, tree, md, entries, S, ?_⟩
  exact {
    regions := C86_regions hu S (quiet_noCustom _) (names := ["USA"]) (by simp) (.inl rfl)
    tf := y3, dt := y2, start := y1
    population := fun t ht => quietSeries_spec (h1 _ (by simp)) ht
    gdp := fun t ht => quietSeries_spec (h1 _ (by simp)) ht
    emissions := fun t ht => quietSeries_spec (h1 _ (by simp)) ht
    kappa := (quietRegional_spec h2).trans (by norm_num)
    factor := (quietRegional_spec h3).trans (by norm_num)
    alpha := N.capital_share E.capital_share
    dk := N.depreciation E.depreciation
    sr := N.savings E.savings
    beta := N.exponent E.exponent
    gamma := (Q.cost_level _ E.cost_level hP.cost_level).trans (by norm_num)
    rate := N.learning_by_doing E.learning_by_doing
    scaling := (Q.learning_scale _ E.learning_scale hP.learning_scale).trans (by norm_num)
    lot := N.learning_over_time E.learning_over_time
    T0 := (Q.initial_temperature _ ⟨rfl, quiet_noCustom _⟩ hP.initial_temperature).trans (by norm_num)
    TCRE := (Q.TCRE _ ⟨rfl, quiet_noCustom _⟩ hP.TCRE).trans (by norm_num)
    budget := by
      have hs := (optional_quantity (ks := ["emissions", "carbonbudget"]) hu S (by simp)
        (by unfold PlainKey; decide) (unit := "emissions_unit") (by decide +kernel) budget_mem
        (by simp only [DocIs]; decide) (by decide) (by decide) (quiet_noCustom _)
        (u := .atom (.str "600 GtCO2")) (.inl rfl) ⟨rfl, by simp⟩).1 (by simp [WrittenFalse])
      obtain ⟨x, hx, hs⟩ := hs
      have : x = .fin 600 := by
        have e : quietWorld.pint.conv (customReplace (pyStr exampleBuiltins (.atom (.str "600 GtCO2"))).toList)
          (targetUnit "emissions_unit".toList) = .ok (.fin 600) := by decide +kernel
        rw [e] at hx
        cases hx; rfl
      subst this
      simp [paramsOf, optOf, hs, Val.num]
    target := L.target ⟨rfl, quiet_noCustom _⟩
    inertia_global := L.inertia_global ⟨rfl, quiet_noCustom _⟩
    inertia_regional := L.inertia_regional ⟨rfl, quiet_noCustom _⟩
    min_global := (Q.global_min (-10) ⟨rfl, quiet_noCustom _⟩ (by
      unfold Spec.PintReads quietWorld quietPint; dsimp only; decide +kernel)).trans (by norm_num)
    min_regional := (Q.regional_min (-10) ⟨rfl, quiet_noCustom _⟩ (by
      unfold Spec.PintReads quietWorld quietPint; dsimp only; decide +kernel)).trans (by norm_num)
    floor := N.cost_floor ⟨rfl, quiet_noCustom _⟩
    reversible := N.reversible ⟨rfl, quiet_noCustom _⟩
    regime := L.regime ⟨rfl, quiet_noCustom _⟩
    trapz := (C86_switches hu S).trapezoids ⟨rfl, quiet_noCustom _⟩
    damage_scale := by simp [paramsOf, numOf, scalarOf, h4]
    exogenous := by
      rcases C56_switch hu S (s := ⟨"use_carbon_intensity_for_baseline", ["emissions", "baseline carbon intensity"],
        "::emissions.baseline carbon intensity", (·.use_carbon_intensity_for_baseline)⟩) (by simp [switches])
        (quiet_noCustom _) (.inl rfl : Effective quietUser _ (.atom (.bool false))) with ⟨h, -⟩ | ⟨-, h⟩
      · simp [WrittenTrue] at h
      · exact h }

section
variable {md : Modules} {p : Params} (h : Quiet p)
include h

theorem Quiet.world (t : ℕ) (ht : t ≤ 26) (a : ℕ → String → ℝ) : Spec.pathWorld p a t = (1 - a t "USA") * 10 := by
  simp [Spec.pathWorld, Spec.pathEmissions, h.regions, h.emissions t ht]

theorem Quiet.cum_zero (t : ℕ) (ht : t ≤ 26) : Spec.pathCumulative p (fun _ _ => 0) t = 50 * t := by
  induction t with
  | zero => simp [Spec.pathCumulative]
  | succ t ih =>
    rw [Spec.pathCumulative, if_pos h.trapz, ih (by omega), h.world (t + 1) ht, h.world t (by omega), h.dt]
    push_cast; ring

theorem Quiet.data : Spec.PositiveData p where
  regions := by simp [h.regions]
  population := fun t ht r hr => by
    rw [h.regions, List.mem_singleton] at hr
    rw [hr, h.population t (h.tf ▸ ht)]; norm_num
  gdp := fun t ht r hr => by
    rw [h.regions, List.mem_singleton] at hr
    rw [hr, h.gdp t (h.tf ▸ ht)]; norm_num
  emissions := by simp [h.regions, h.emissions 0]
  cumulative := fun t ht => by
    rw [← Scaled.baseline_cum h.trapz, h.cum_zero (t + 1) (by have := h.tf; omega)]
    positivity
  capital := fun r hr => by
    rw [h.regions, List.mem_singleton] at hr
    rw [hr, h.factor]; norm_num

/-- A fifth of the emissions is abated by 2025, two fifths by 2030, …, all of them from 2045 on. -/
noncomputable def ramp (t : ℕ) (_ : String) : ℝ := min 1 (t / 5)

omit h in
theorem ramp_range (t : ℕ) (r : String) : 0 ≤ ramp t r ∧ ramp t r ≤ 1 :=
  ⟨le_min zero_le_one (by positivity), min_le_left _ _⟩

omit h in
theorem ramp_full {t : ℕ} (ht : 5 ≤ t) (r : String) : ramp t r = 1 := by
  have : (5 : ℝ) ≤ t := by exact_mod_cast ht
  exact min_eq_left (by linarith)

omit h in
theorem ramp_step (t : ℕ) (r : String) : ramp (t + 1) r ≤ ramp t r + 1 / 5 := by
  unfold ramp
  rcases min_cases (1 : ℝ) (t / 5) with ⟨h1, -⟩ | ⟨h1, -⟩ <;> rw [h1]
  · exact (min_le_left _ _).trans (by norm_num)
  · exact (min_le_right _ _).trans (by push_cast; linarith)

theorem Quiet.ramp_cum (t : ℕ) (ht : t ≤ 26) : Spec.pathCumulative p ramp t ≤ 50 * min (t : ℝ) 5 := by
  induction t with
  | zero => simp [Spec.pathCumulative]
  | succ t ih =>
    have ih := ih (by omega)
    rw [Spec.pathCumulative, if_pos h.trapz, h.world (t + 1) ht, h.world t (by omega), h.dt]
    by_cases h5 : 5 ≤ t
    · rw [ramp_full h5, ramp_full (by omega)]
      rw [min_eq_right (by exact_mod_cast h5)] at ih
      rw [min_eq_right (by push_cast; have : (5 : ℝ) ≤ t := by exact_mod_cast h5
                           linarith)]
      linarith
    · have h1 : (t : ℝ) + 1 ≤ 5 := by exact_mod_cast (by omega : t + 1 ≤ 5)
      rw [min_eq_left (by linarith)] at ih
      rw [min_eq_left (by push_cast; exact h1)]
      have := (ramp_range t "USA").1
      have := (ramp_range (t + 1) "USA").1
      push_cast
      linarith

theorem Quiet.ramp_limits : Spec.PathWithinLimits p ramp := by
  have hE : ∀ t ≤ 26, ∀ r ∈ p.regions, Spec.pathEmissions p ramp t r = (1 - ramp t r) * 10 := by
    intro t ht r hr
    rw [h.regions, List.mem_singleton] at hr
    rw [Spec.pathEmissions, hr, h.emissions t ht]
  have hC : ∀ t ≤ 26, Spec.pathCumulative p ramp t ≤ 250 := fun t ht => by
    have := h.ramp_cum t ht
    have := min_le_right (t : ℝ) 5
    linarith
  have late : ∀ t ≤ p.tf, (2100 : ℝ) ≤ p.year t → 5 ≤ t := by
    intro t _ hy
    simp only [Params.year, h.start, h.dt] at hy
    by_contra h5
    have : (t : ℝ) ≤ 4 := by exact_mod_cast (by omega : t ≤ 4)
    push_cast at hy
    linarith
  have hT : ∀ t ≤ 26, Spec.pathTemperature p ramp t ≤ 2 := fun t ht => by
    rw [Spec.pathTemperature, h.T0, h.TCRE]
    linarith [hC t ht]
  constructor
  · intro r _; simp [ramp]
  · intro t _ r _; exact ramp_range t r
  · intro T hT; rw [h.target] at hT; cases hT
  · intro b hb t ht hy
    rw [h.budget] at hb
    cases hb
    refine ⟨by linarith [hC t (h.tf ▸ ht)], fun _ => ?_⟩
    rw [h.world t (h.tf ▸ ht), ramp_full (late t ht hy)]; norm_num
  · intro i hi; rw [h.inertia_global] at hi; cases hi
  · intro i hi t ht r hr
    have ht : t < 26 := h.tf ▸ ht
    rw [h.inertia_regional] at hi
    cases hi
    rw [hE _ (by omega) r hr, hE _ (by omega) r hr, h.dt]
    rw [h.regions, List.mem_singleton] at hr
    rw [hr, h.emissions 0 (by omega)]
    linarith [ramp_step t "USA"]
  · intro l hl t ht
    rw [h.min_global] at hl
    cases hl
    rw [h.world t (h.tf ▸ ht)]
    linarith [(ramp_range t "USA").2]
  · intro l hl t ht r hr
    rw [h.min_regional] at hl
    cases hl
    rw [hE t (h.tf ▸ ht) r hr]
    linarith [(ramp_range t r).2]
  · intro _ t ht hy r hr
    have ht : t < 26 := h.tf ▸ ht
    have h5 := late t (by have := h.tf; omega) hy.le
    rw [hE _ (by omega) r hr, hE _ (by omega) r hr, ramp_full h5, ramp_full (by omega)]
  · rw [h.floor]
  · intro t _ r hr
    right
    rw [h.regions, List.mem_singleton] at hr
    refine ⟨h.trapz, ?_⟩
    rw [hr, h.kappa, h.beta]
    have := Real.rpow_le_one (ramp_range t "USA").1 (ramp_range t "USA").2 (by norm_num : (0 : ℝ) ≤ 3)
    linarith
  · intro t ht
    have := hT t (h.tf ▸ ht)
    rw [h.dt]
    constructor <;> linarith
  · intro t _ r _
    rw [h.damage_scale]
    norm_num

theorem Quiet.ordinary (hd : md.damage = .nodamage) : Spec.OrdinaryData md p where
  baseline_nonneg := fun t ht r hr => by
    rw [h.regions, List.mem_singleton] at hr
    rw [hr, h.emissions t (h.tf ▸ ht)]; norm_num
  T0_nonneg := by rw [h.T0]; norm_num
  TCRE_nonneg := by rw [h.TCRE]; norm_num
  lbd_le := by rw [h.rate]; norm_num
  lot_nonneg := by rw [h.lot]
  gamma_nonneg := by rw [h.gamma]; norm_num
  scaling_nonneg := fun r hr => by
    rw [h.regions, List.mem_singleton] at hr
    rw [hr, h.kappa]; norm_num
  reversible := by rw [h.reversible]
  start := by rw [h.start]; norm_num
  forms := fun hm => by rw [hd] at hm; cases hm

/-- The costs of abatement are small in every solution. -/
theorem Quiet.costs {σ : Env} (hd : md.damage = .nodamage) (htr : md.trade = .notrade) (hs : Solution md p σ) {t : ℕ}
    (ht : t ≤ p.tf) : 0 ≤ σ.R .mitigation_costs t "USA" ∧ σ.R .mitigation_costs t "USA" ≤ 0.255 := by
  have hr : "USA" ∈ p.regions := by simp [h.regions]
  have hb : σ.R .baseline t "USA" = 10 := by
    rw [(C23_baseline hs ht hr).1 h.exogenous, h.emissions t (h.tf ▸ ht)]
  have hL : 0 < p.LBD_scaling := by rw [h.scaling]; norm_num
  have hc : σ.G .cumulative_emissions t ≤ p.cumulative_global_baseline_emissions t := by
    rw [← Scaled.baseline_cum h.trapz]
    exact Scaled.cum_le hs h.exogenous (by rw [h.dt]; norm_num) (h.ordinary hd).baseline_nonneg ht
  have h1 := (C31_at_most_one hs hL (by rw [h.rate]; norm_num) (by rw [h.lot]) ht hc).2
  have h0 := (C31_positive hs (by rw [h.lot]; norm_num) ht).2.2
  have ha := hs.abatement_bounds ht hr
  rw [C33_costs_notrade hs htr ht hr, (hs.eqs.mitigation.area t ht _ hr).2, hb, acVal, h.kappa, h.gamma, h.beta,
    show (3 : ℝ) + 1 = ((4 : ℕ) : ℝ) by norm_num, Real.rpow_natCast]
  have h4 : σ.R .relative_abatement t "USA" ^ 4 ≤ (5 / 2) ^ 4 := pow_le_pow_left₀ ha.1 ha.2 4
  have h4' : 0 ≤ σ.R .relative_abatement t "USA" ^ 4 := pow_nonneg ha.1 4
  have := mul_le_mul h1 h4 h4' zero_le_one
  have := mul_nonneg h0.le h4'
  push_cast
  norm_num at *
  constructor <;> nlinarith

theorem Quiet.prosperous {σ : Env} (hd : md.damage = .nodamage) (htr : md.trade = .notrade)
    (hadm : p.Admissible) (hs : Solution md p σ) : Spec.Prosperous p σ := by
  have hr : "USA" ∈ p.regions := by simp [h.regions]
  have hq : (1 - p.dk) ^ p.dt = 0.7737809375 := by
    rw [h.dk, h.dt, show (5 : ℝ) = ((5 : ℕ) : ℝ) by norm_num, Real.rpow_natCast]; norm_num
  have hK : ∀ t, t < 26 → Spec.baselineCapital p "USA" (t + 1) = 0.7737809375 * Spec.baselineCapital p "USA" t + 10.5 := by
    intro t ht
    rw [Spec.baselineCapital, hq, h.dt, h.sr, h.gdp t (by omega)]; norm_num
  have hK0 : ∀ t, t ≤ 26 → 40 ≤ Spec.baselineCapital p "USA" t := by
    intro t ht
    induction t with
    | zero => rw [Spec.baselineCapital, h.factor, h.gdp 0 (by omega)]; norm_num
    | succ t ih => rw [hK t (by omega)]; linarith [ih (by omega)]
  have hroot : (0.96 : ℝ) ≤ (9 / 10) ^ p.alpha := by
    rw [h.alpha]
    by_contra hlt
    push Not at hlt
    have h1 : ((9 / 10 : ℝ) ^ (0.3 : ℝ)) ^ 10 < 0.96 ^ 10 := pow_lt_pow_left₀ hlt (by positivity) (by norm_num)
    rw [← Real.rpow_natCast, ← Real.rpow_mul (by norm_num), show (0.3 : ℝ) * ((10 : ℕ) : ℝ) = ((3 : ℕ) : ℝ) by norm_num,
      Real.rpow_natCast] at h1
    norm_num at h1
  have net : ∀ t ≤ p.tf, σ.R .GDP_net t "USA" = σ.R .GDP_gross t "USA" - σ.R .mitigation_costs t "USA" := fun t ht =>
    NoAbate.net_eq (.inl hd) hs ht hr
  have main := C83_at_least_with_costs hs hadm.econData (by rw [h.alpha]; norm_num) (by rw [h.alpha]; norm_num) hr
    (D := fun _ => 0.255) (fun t ht _ => by rw [net t ht]; linarith [(h.costs hd htr hs ht).2])
    (c := 9 / 10) (by norm_num) (by norm_num)
    (fun t ht => by
      have := hK0 t (by rw [h.tf] at ht; omega)
      rw [h.dt, h.sr]; linarith)
    (fun t ht => by
      rw [h.tf] at ht
      have := hK0 t (by omega)
      rw [hq, hK t ht, h.dt, h.sr, h.gdp (t + 1) (by omega)]
      linarith)
  refine ⟨fun t ht r hr' => ?_, fun t ht r hr' => ?_, fun t ht _ r hr' => ?_⟩ <;>
    rw [h.regions, List.mem_singleton] at hr' <;> subst hr'
  · linarith [(main t ht).1, hK0 t (h.tf ▸ ht)]
  · have h1 := (main t ht.le).1
    have h2 := hK0 t (by rw [h.tf] at ht; omega)
    have h3 := (h.costs hd htr hs (t := t + 1) ht).2
    rw [h.dt, h.sr]
    linarith
  · have h1 := (main t ht).2
    have h3 := (h.costs hd htr hs ht).2
    rw [hs.eqs.economy.consumption t ht _ hr, net t ht, h.sr, h.population t (h.tf ▸ ht)]
    rw [h.gdp t (h.tf ▸ ht)] at h1
    linarith

end

/-- **The concrete case.**  With the default economy, no damages and a budget of 600 GtCO2 there is an optimum, and all
optima have the same policy. -/
example : ∃ params tree md entries, Setup exampleBuiltins (fun _ => false) quietFiles quietWorld
    quietUser (afterHistory quietWorld []) params tree md entries ∧ (paramsOf entries).Admissible ∧
    Spec.ConvexSetting md (paramsOf entries) ∧
    ∃ σ, Optimal md (paramsOf entries) σ ∧ (∀ t ≤ 26, 16 ≤ t → σ.G .cumulative_emissions t ≤ 600) ∧
      ∀ τ, Optimal md (paramsOf entries) τ → ∀ t ≤ 26, σ.R .relative_abatement t "USA" = τ.R .relative_abatement t "USA" := by
  obtain ⟨params, tree, md, entries, S, h⟩ := quiet
  have hu := quietUser_wf
  have hr : "USA" ∈ (paramsOf entries).regions := by simp [h.regions]
  have hadm := C86_admissible hu S quiet_run.economy quiet_pint quiet_run.grid h.data
  have hb : ∀ t ≤ (paramsOf entries).tf, ∀ r ∈ (paramsOf entries).regions, 0 < (paramsOf entries).baseline_emissions t r := by
    intro t ht r hr
    rw [h.regions, List.mem_singleton] at hr
    rw [hr, h.emissions t (h.tf ▸ ht)]; norm_num
  have hk : ∀ r ∈ (paramsOf entries).regions, 0 < (paramsOf entries).MAC_scaling_factor r := by
    intro r hr
    rw [h.regions, List.mem_singleton] at hr
    rw [hr, h.kappa]; norm_num
  have hw : ∀ t ≤ (paramsOf entries).tf, Spec.pathTemperature (paramsOf entries) (fun _ _ => 0) t ≤ 10 := by
    intro t ht
    have ht : t ≤ 26 := h.tf ▸ ht
    have : (t : ℝ) ≤ 26 := by exact_mod_cast ht
    rw [Spec.pathTemperature, h.cum_zero t ht, h.T0, h.TCRE]
    linarith
  have hc := C86_setting hu S quiet_run quiet_pint (fun t ht r hr => (hb t ht r hr).le) hk hw
  have hd := hc.no_damages
  have htr : md.trade = .notrade := hc.policy.trade
  obtain ⟨ρ, hρ, -⟩ := C49_path_feasible_exogenous hadm (h.ordinary hd) h.ramp_limits h.exogenous (by rw [htr]; simp)
    (fun _ hm => by rw [hd] at hm; cases hm) (.inl h.regime)
  obtain ⟨σ, hσ⟩ := C65_optimum_exists_exogenous hadm (fun hm => by rw [hd] at hm; cases hm) h.exogenous ⟨ρ, hρ⟩
  refine ⟨params, tree, md, entries, S, hadm, hc, σ, hσ, fun t ht h16 => ?_, fun τ hτ t ht => ?_⟩
  · refine C26_budget hσ.1 h.budget (t := t) (by rw [h.tf]; exact ht) ?_
    simp only [h.start, h.dt]
    have : (16 : ℝ) ≤ t := by exact_mod_cast h16
    linarith
  · exact C86_one_optimum hu S quiet_run quiet_pint h.data hb hk hw hσ hτ (h.prosperous hd htr hadm hσ.1)
      (h.prosperous hd htr hadm hτ.1) (h.tf ▸ ht) hr

end Ex
end Mimosa
