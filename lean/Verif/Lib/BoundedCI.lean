import Verif.Lib.Bounded

/-!
# The set of solutions is bounded with the carbon-intensity baseline

Here the baseline emissions of a period are proportional to its net product, which depends on damages and hence on the
emissions of the same period.
-/

set_option linter.unusedSimpArgs false
set_option linter.unusedVariables false
set_option linter.unusedSectionVars false

namespace Mimosa
open Damages Topology

variable {md : Modules} {p : Params}

/-- Data for which the solutions with a carbon-intensity baseline are bounded. -/
structure CIBounds (md : Modules) (p : Params) : Prop where
  /-- the signs that `Params.Admissible` lists -/
  adm : p.Admissible
  /-- the damage functions can be evaluated everywhere -/
  forms : md.damage = .COACCH → ∀ r ∈ p.regions, ∀ x, FormOk x p.noslr r ∧ FormOk x p.slr r
  /-- the baseline follows the product -/
  ci : p.use_carbon_intensity_for_baseline = true
  baseline_nonneg : ∀ t ≤ p.tf, ∀ r ∈ p.regions, 0 ≤ p.baseline_emissions t r
  TCRE_nonneg : 0 ≤ p.TCRE
  lbd_le : p.LBD_rate ≤ 1
  gamma_pos : 0 < p.MAC_gamma
  scaling_pos : ∀ r ∈ p.regions, 0 < p.MAC_scaling_factor r
  /-- however hot it gets, warming does not bring unbounded gains -/
  damage_lower : md.damage = .COACCH → ∀ r ∈ p.regions, ∃ m, ∀ T, p.T0 ≤ T →
    m ≤ p.damage_scale_factor * (formVal (T - 0.6) p.noslr r - formVal (p.T0 - 0.6) p.noslr r)
  /-- transfers are bounded by damages, so damages must count when there are transfers -/
  transfers : p.ignore_damages = true → md.transfer = .notransfer

namespace CIBounds
variable (h : CIBounds md p)
include h

theorem temp_ge {σ : Env} (hσ : Solution md p σ) {t : ℕ} (ht : t ≤ p.tf) : p.T0 ≤ σ.G .temperature t := by
  rw [hσ.eqs.emissions.temperature t ht]
  have := mul_nonneg h.TCRE_nonneg (hσ.eqs.emissions.cumulative_nonneg t ht)
  linarith

theorem damageBelow {t : ℕ} (ht : t ≤ p.tf) {r : String} (hr : r ∈ p.regions) :
    Above md p fun σ => -σ.R .damage_costs t r := by
  cases hd : md.damage with
  | COACCH =>
    obtain ⟨m, hm⟩ := h.damage_lower hd r hr
    refine ⟨-m + 1 / 2, fun σ hσ => ?_⟩
    have e := hσ.coacch' hd
    simp only
    rw [e.total t ht r hr, (e.noslr t ht r hr).2.2]
    have := hm _ (h.temp_ge hσ ht)
    have := (hσ.slr_damage_bounds hd ht hr).1
    linarith
  | nodamage =>
    refine ⟨0, fun σ hσ => ?_⟩
    have := hσ.eqs.damages; rw [hd] at this
    simp only
    rw [this t ht r hr]; simp

theorem net_le {t : ℕ} (ht : t ≤ p.tf) {r : String} (hr : r ∈ p.regions) :
    ∃ M, ∀ σ, Solution md p σ → σ.R .GDP_net t r ≤ M * σ.R .GDP_gross t r := by
  obtain ⟨B, hB⟩ := h.damageBelow ht hr
  refine ⟨1 + max B 0 + |p.rel_mitigation_costs_min_level|, fun σ hσ => ?_⟩
  have hg := hσ.gross_pos h.adm ht hr
  have hm := mitigation_lower h.adm hσ ht hr
  have hd := hB σ hσ
  have hb := le_max_left B 0
  have hb0 := le_max_right B 0
  rw [hσ.eqs.economy.net t ht r hr]
  cases hf : md.transfer with
  | notransfer =>
    simp only [transferVal]
    split
    · nlinarith [mul_nonneg hb0 hg.le]
    · nlinarith
  | globaldamagepool =>
    have hi : ¬ p.ignore_damages = true := fun hi => by have := h.transfers hi; simp [hf] at this
    have := (hσ.pool' hf).max_own t ht r hr
    simp only [transferVal]
    rw [if_neg hi]
    nlinarith [mul_nonneg hb0 hg.le]

theorem gross {t : ℕ} (ht : t ≤ p.tf) {r : String} (hr : r ∈ p.regions) : Bd md p fun σ => σ.R .GDP_gross t r :=
  gross_bd h.adm hr ht (capital_above h.adm hr (fun _ ht => h.net_le ht hr) t ht)

theorem intensity_nonneg {t : ℕ} (ht : t ≤ p.tf) {r : String} (hr : r ∈ p.regions) :
    0 ≤ p.baseline_carbon_intensity t r :=
  div_nonneg (h.baseline_nonneg t ht r hr) (h.adm.gdp_pos t ht r hr).le

theorem baseline_eq {σ : Env} (hσ : Solution md p σ) {t : ℕ} (ht : t ≤ p.tf) {r : String} (hr : r ∈ p.regions) :
    σ.R .baseline t r = p.baseline_carbon_intensity t r * σ.R .GDP_net t r := by
  have := hσ.eqs.emissions.baseline t ht r hr
  rwa [if_pos h.ci] at this

theorem baselineAbove {t : ℕ} (ht : t ≤ p.tf) {r : String} (hr : r ∈ p.regions) :
    Above md p fun σ => σ.R .baseline t r := by
  obtain ⟨M, hM⟩ := h.net_le ht hr
  obtain ⟨B, hB⟩ := ((h.gross ht hr).cmul M).above
  refine ⟨p.baseline_carbon_intensity t r * B, fun σ hσ => ?_⟩
  simp only
  rw [h.baseline_eq hσ ht hr]
  exact mul_le_mul_of_nonneg_left ((hM σ hσ).trans (hB σ hσ)) (h.intensity_nonneg ht hr)

theorem ac_eq {σ : Env} (hσ : Solution md p σ) {t : ℕ} (ht : t ≤ p.tf) {r : String} (hr : r ∈ p.regions) :
    acVal p σ t r = σ.R .carbonprice t r * σ.R .relative_abatement t r / (p.MAC_beta + 1) := by
  have ha := (hσ.abatement_bounds ht hr).1
  have hβ := h.adm.beta_pos
  rw [(hσ.eqs.mitigation.carbonprice t ht r hr).2]
  unfold acVal macVal
  rw [Real.rpow_add_one' ha (by linarith)]
  ring
theorem ac_bounds {σ : Env} (hσ : Solution md p σ) {t : ℕ} (ht : t ≤ p.tf) {r : String} (hr : r ∈ p.regions) :
    0 ≤ acVal p σ t r ∧ acVal p σ t r ≤ 2 * p.MAC_gamma * (5 / 2) / (p.MAC_beta + 1) := by
  have ha := hσ.abatement_bounds ht hr
  have hp := hσ.price_bounds ht hr
  have hβ := h.adm.beta_pos
  rw [h.ac_eq hσ ht hr]
  constructor
  · have := ha.1; have := hp.1; positivity
  · gcongr
    · exact ha.1
    · have := h.gamma_pos; positivity
    · exact hp.2
    · exact ha.2

theorem areaAbove {t : ℕ} (ht : t ≤ p.tf) {r : String} (hr : r ∈ p.regions) :
    Above md p fun σ => acVal p σ t r * σ.R .baseline t r := by
  obtain ⟨B, hB⟩ := h.baselineAbove ht hr
  refine ⟨2 * p.MAC_gamma * (5 / 2) / (p.MAC_beta + 1) * max B 0, fun σ hσ => ?_⟩
  have h1 := h.ac_bounds hσ ht hr
  have h2 := (hB σ hσ).trans (le_max_left B 0)
  calc acVal p σ t r * σ.R .baseline t r ≤ acVal p σ t r * max B 0 := mul_le_mul_of_nonneg_left h2 h1.1
    _ ≤ _ := mul_le_mul_of_nonneg_right h1.2 (le_max_right _ _)

theorem mitigAbove {t : ℕ} (ht : t ≤ p.tf) {r : String} (hr : r ∈ p.regions) :
    Above md p fun σ => -σ.R .mitigation_costs t r := by
  obtain ⟨B, hB⟩ := ((h.gross ht hr).cmul |p.rel_mitigation_costs_min_level|).above
  exact ⟨B, fun σ hσ => by linarith [mitigation_lower h.adm hσ ht hr, hB σ hσ]⟩

theorem area {t : ℕ} (ht : t ≤ p.tf) {r : String} (hr : r ∈ p.regions) :
    Bd md p fun σ => acVal p σ t r * σ.R .baseline t r := by
  refine Bd.of_above (h.areaAbove ht hr) ?_
  cases htr : md.trade with
  | globalcostpool => exact ⟨0, fun σ hσ => absurd htr hσ.trade_ne⟩
  | notrade =>
    obtain ⟨B, hB⟩ := h.mitigAbove ht hr
    refine ⟨B, fun σ hσ => ?_⟩
    have e := (hσ.eqs.mitigation.mitigation_costs t ht r hr).2
    rw [htr] at e
    simp only [costBalanceVal, add_zero] at e
    simp only
    rw [← e]; exact hB σ hσ
  | emissiontrade =>
    obtain ⟨B, hB⟩ := uniform_bound (Q := fun r B => ∀ σ, Solution md p σ → acVal p σ t r * σ.R .baseline t r ≤ B)
      (fun r B B' hBB h σ hσ => (h σ hσ).trans hBB) fun r hr => h.areaAbove ht hr
    obtain ⟨C, hC⟩ := uniform_bound (Q := fun r B => ∀ σ, Solution md p σ → -σ.R .mitigation_costs t r ≤ B)
      (fun r B B' hBB h σ hσ => (h σ hσ).trans hBB) fun r hr => h.mitigAbove ht hr
    refine ⟨p.sumR (fun _ => B) + p.sumR (fun _ => C) - B, fun σ hσ => ?_⟩
    have h1 := le_sumR (p := p) (f := fun r => B - acVal p σ t r * σ.R .baseline t r)
      (fun r hr => by linarith [hB r hr σ hσ]) hr
    rw [sumR_sub] at h1
    have h2 : p.sumR (fun r => acVal p σ t r * σ.R .baseline t r) = p.sumR fun r => σ.R .mitigation_costs t r := by
      have e : p.sumR (fun r => σ.R .mitigation_costs t r) = p.sumR (fun r => acVal p σ t r * σ.R .baseline t r +
          σ.R .import_export_mitigation_cost_balance t r) := sumR_congr fun r hr => by
        have e := (hσ.eqs.mitigation.mitigation_costs t ht r hr).2
        rw [htr] at e; exact e
      rw [e, sumR_add, (hσ.trade' htr).zero_sum t ht, add_zero]
    have h3 : p.sumR (fun r => -σ.R .mitigation_costs t r) ≤ p.sumR fun _ => C := sumR_le fun r hr => hC r hr σ hσ
    have h4 : p.sumR (fun r => -σ.R .mitigation_costs t r) = -p.sumR fun r => σ.R .mitigation_costs t r := by
      have := sumR_mul_left (p := p) (f := fun r => σ.R .mitigation_costs t r) (-1)
      simpa using this
    rw [h4] at h3
    rw [h2] at h1
    linarith

/-- Abating more than everything costs at least a fixed amount per unit of baseline emissions. -/
theorem ac_lower {t : ℕ} (ht : t ≤ p.tf) {r : String} (hr : r ∈ p.regions) :
    ∃ c, 0 < c ∧ ∀ σ, Solution md p σ → 1 ≤ σ.R .relative_abatement t r → c ≤ acVal p σ t r := by
  have hβ := h.adm.beta_pos
  have hs := h.scaling_pos r hr
  have hγ := h.gamma_pos
  set X := p.cumulative_global_baseline_emissions t / p.LBD_scaling + 1 with hX
  have hl : p.log_LBD_rate ≤ 0 :=
    div_nonpos_of_nonpos_of_nonneg (Real.log_nonpos h.adm.lbd_pos.le h.lbd_le) (Real.log_nonneg (by norm_num))
  have h1 := Real.rpow_pos_of_pos (soft_min_pos_one X) p.log_LBD_rate
  have h2 : 0 < (1 + p.LOT_rate) ^ (t : ℝ) := Real.rpow_pos_of_pos h.adm.lot _
  refine ⟨soft_min X 1 ^ p.log_LBD_rate * (1 / (1 + p.LOT_rate) ^ (t : ℝ)) * p.MAC_scaling_factor r * p.MAC_gamma * 1 /
    (p.MAC_beta + 1), by positivity, fun σ hσ ha => ?_⟩
  have e1 := (hσ.eqs.mitigation.lbd t ht).2
  have e2 := (hσ.eqs.mitigation.lot t ht).2.2
  have e3 := hσ.eqs.mitigation.learning t ht
  have hle : soft_min X 1 ^ p.log_LBD_rate ≤ σ.G .LBD_factor t := by
    rw [e1]
    refine Real.rpow_le_rpow_of_nonpos (soft_min_pos_one _) ?_ hl
    refine (soft_min_strictMono one_pos).monotone ?_
    rw [hX]
    have := hσ.eqs.emissions.cumulative_nonneg t ht
    have := h.adm.lbd_scaling
    gcongr
    linarith
  unfold acVal
  rw [e3, e2]
  have hpow : 1 ≤ σ.R .relative_abatement t r ^ (p.MAC_beta + 1) := Real.one_le_rpow ha (by linarith)
  have h3 := h1.le.trans hle
  gcongr

theorem emissionsAbove {t : ℕ} (ht : t ≤ p.tf) {r : String} (hr : r ∈ p.regions) :
    Above md p fun σ => σ.R .regional_emissions t r := by
  cases t with
  | zero => exact ⟨_, fun σ hσ => (hσ.eqs.emissions.regional_emissions_init r hr).le⟩
  | succ t =>
    obtain ⟨B, hB⟩ := h.baselineAbove ht hr
    obtain ⟨A, hA⟩ := h.area ht hr
    obtain ⟨c, hc, hac⟩ := h.ac_lower ht hr
    refine ⟨max B 0 + 3 / 2 * (A / c), fun σ hσ => ?_⟩
    have hA0 : 0 ≤ A := (abs_nonneg _).trans (hA σ hσ)
    have hAc : 0 ≤ A / c := div_nonneg hA0 hc.le
    have ha := hσ.abatement_bounds ht hr
    have hb := (hB σ hσ).trans (le_max_left B 0)
    have hb0 := le_max_right B 0
    have e := hσ.eqs.emissions.regional_emissions t ht r hr
    rw [if_pos h.ci] at e
    simp only
    rw [e]
    set a := σ.R .relative_abatement (t + 1) r
    set b := σ.R .baseline (t + 1) r
    rcases le_total a 1 with h1 | h1
    · rcases le_total 0 b with h2 | h2
      · nlinarith [mul_nonneg ha.1 h2]
      · nlinarith [mul_nonneg (sub_nonneg.2 h1) (neg_nonneg.2 h2)]
    · rcases le_total 0 b with h2 | h2
      · nlinarith [mul_nonneg (sub_nonneg.2 h1) h2]
      · have h3 := hac σ hσ h1
        have h4 := (abs_le.1 (hA σ hσ)).1
        have h5 : -b ≤ A / c := by
          rw [le_div_iff₀ hc]
          nlinarith
        nlinarith [mul_nonneg (sub_nonneg.2 ha.2) (neg_nonneg.2 h2)]

theorem worldAbove {t : ℕ} (ht : t ≤ p.tf) : Above md p fun σ => σ.G .global_emissions t := by
  cases t with
  | zero => exact ⟨_, fun σ hσ => hσ.eqs.emissions.global_emissions_init.le⟩
  | succ t =>
    obtain ⟨B, hB⟩ := uniform_bound (Q := fun r B => ∀ σ, Solution md p σ → σ.R .regional_emissions (t + 1) r ≤ B)
      (fun r B B' hBB h σ hσ => (h σ hσ).trans hBB) fun r hr => h.emissionsAbove ht hr
    refine ⟨p.sumR fun _ => B, fun σ hσ => ?_⟩
    simp only
    rw [hσ.eqs.emissions.global_emissions t ht]
    exact sumR_le fun r hr => hB r hr σ hσ

theorem cumulative {t : ℕ} (ht : t ≤ p.tf) : Bd md p fun σ => σ.G .cumulative_emissions t := by
  suffices Above md p fun σ => σ.G .cumulative_emissions t by
    obtain ⟨B, hB⟩ := this
    exact Bd.of_between (A := 0) (B := B) fun σ hσ => ⟨hσ.eqs.emissions.cumulative_nonneg t ht, hB σ hσ⟩
  induction t with
  | zero => exact ⟨0, fun σ hσ => hσ.eqs.emissions.cumulative_init.le⟩
  | succ t ih =>
    obtain ⟨A, hA⟩ := ih (by omega)
    obtain ⟨B, hB⟩ := h.worldAbove ht
    obtain ⟨C, hC⟩ := h.worldAbove (by omega : t ≤ p.tf)
    have hdt := h.adm.dt_pos
    refine ⟨A + (if p.cumulative_emissions_trapz then p.dt * (B + C) / 2 else p.dt * B), fun σ hσ => ?_⟩
    simp only
    rw [hσ.eqs.emissions.cumulative t ht]
    have h1 := hA σ hσ; have h2 := hB σ hσ; have h3 := hC σ hσ
    refine add_le_add h1 ?_
    split
    · gcongr
    · gcongr

theorem temperature {t : ℕ} (ht : t ≤ p.tf) : Bd md p fun σ => σ.G .temperature t :=
  ((Bd.const _).add ((h.cumulative ht).cmul _)).congr fun σ hσ => hσ.eqs.emissions.temperature t ht

theorem damage {t : ℕ} (ht : t ≤ p.tf) {r : String} (hr : r ∈ p.regions) : Bd md p fun σ => σ.R .damage_costs t r := by
  cases hd : md.damage with
  | COACCH =>
    have h1 : Bd md p fun σ => σ.R .damage_costs_non_slr t r := by
      refine Bd.congr ?_ fun σ hσ => ((hσ.coacch' hd).noslr t ht r hr).2.2
      exact ((((h.temperature ht).sub (Bd.const _)).comp (formVal_continuous fun x => (h.forms hd r hr x).1)).sub
        (Bd.const _)).cmul _
    have h2 : Bd md p fun σ => σ.R .damage_costs_slr t r := Bd.of_between fun _ hσ => hσ.slr_damage_bounds hd ht hr
    exact (h1.add h2).congr fun σ hσ => (hσ.coacch' hd).total t ht r hr
  | nodamage =>
    refine (Bd.const 0).congr fun σ hσ => ?_
    have := hσ.eqs.damages; rw [hd] at this; exact this t ht r hr

theorem balance {t : ℕ} (ht : t ≤ p.tf) {r : String} (hr : r ∈ p.regions) :
    Bd md p fun σ => costBalanceVal σ md.trade t r := by
  cases htr : md.trade with
  | notrade => exact Bd.const 0
  | globalcostpool => exact ⟨0, fun σ hσ => absurd htr hσ.trade_ne⟩
  | emissiontrade =>
    refine Bd.of_zero_sum (f := fun σ r => σ.R .import_export_mitigation_cost_balance t r)
      (fun σ hσ => (hσ.trade' htr).zero_sum t ht) (fun r hr => ?_) hr
    obtain ⟨A, hA⟩ := h.mitigAbove ht hr
    obtain ⟨B, hB⟩ := h.areaAbove ht hr
    refine ⟨A + B, fun σ hσ => ?_⟩
    have e1 := (hσ.eqs.mitigation.mitigation_costs t ht r hr).2
    have e3 : costBalanceVal σ md.trade t r = σ.R .import_export_mitigation_cost_balance t r := by rw [htr]; rfl
    rw [e3] at e1
    have := hA σ hσ; have := hB σ hσ
    linarith

theorem transfer {t : ℕ} (ht : t ≤ p.tf) {r : String} (hr : r ∈ p.regions) :
    Bd md p fun σ => transferVal σ md.transfer t r := by
  cases hf : md.transfer with
  | notransfer => exact Bd.const 0
  | globaldamagepool =>
    cases t with
    | zero => exact (Bd.const 0).congr fun σ hσ => (hσ.pool' hf).first_year r hr
    | succ t =>
      refine Bd.of_zero_sum (f := fun σ r => σ.R .financial_transfer (t + 1) r)
        (fun σ hσ => (hσ.pool' hf).zero_sum t ht) (fun r hr => ?_) hr
      obtain ⟨B, hB⟩ := ((h.damage ht hr).mul (h.gross ht hr)).above
      exact ⟨B, fun σ hσ => by linarith [(hσ.pool' hf).max_own (t + 1) ht r hr, hB σ hσ]⟩

theorem net {t : ℕ} (ht : t ≤ p.tf) {r : String} (hr : r ∈ p.regions) : Bd md p fun σ => σ.R .GDP_net t r := by
  refine Bd.congr ?_ fun σ hσ => hσ.eqs.economy.net t ht r hr
  have hm : Bd md p fun σ => σ.R .mitigation_costs t r :=
    ((h.area ht hr).add (h.balance ht hr)).congr fun σ hσ => (hσ.eqs.mitigation.mitigation_costs t ht r hr).2
  refine (((h.gross ht hr).mul ((Bd.const 1).sub ?_)).sub hm).sub (h.transfer ht hr)
  split
  · exact Bd.const 0
  · exact h.damage ht hr

theorem baseBd : BaseBd md p where
  adm := h.adm
  forms := h.forms
  baseline t ht r hr := ((h.net ht hr).cmul _).congr fun σ hσ => h.baseline_eq hσ ht hr
end CIBounds

/-- With exogenous baseline emissions nothing else is needed. -/
theorem baseBd_exogenous (hadm : p.Admissible)
    (hf : md.damage = .COACCH → ∀ r ∈ p.regions, ∀ x, FormOk x p.noslr r ∧ FormOk x p.slr r)
    (hex : p.use_carbon_intensity_for_baseline = false) : BaseBd md p where
  adm := hadm
  forms := hf
  baseline t ht r hr := (Bd.const (p.baseline_emissions t r)).congr fun σ hσ => by
    have := hσ.eqs.emissions.baseline t ht r hr
    rwa [if_neg (by simp [hex])] at this

end Mimosa
