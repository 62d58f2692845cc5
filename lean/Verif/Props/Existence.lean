import Verif.Props.Initial
import Verif.Props.Welfare

/-!
# C49: without a policy target the model has a solution (exogenous baseline; see ExistenceCI for the other one)

`C49_path_feasible_exogenous`: with exogenous baseline emissions, every abatement path between 0 and 1 that starts at zero
and respects the configured emission limits extends to a solution.  `C49_no_policy_feasible_exogenous` is the case of no
abatement at all.
-/

set_option linter.unusedVariables false
set_option linter.unusedSectionVars false

namespace Mimosa
open SeaLevelRise

/-! ## What an abatement path implies, in terms of the data -/

namespace Spec
variable (p : Params) (a : ℕ → String → ℝ)

/-- emissions of a region -/
def pathEmissions (t : ℕ) (r : String) : ℝ := (1 - a t r) * p.baseline_emissions t r
/-- world emissions -/
def pathWorld (t : ℕ) : ℝ := (p.regions.map fun r => pathEmissions p a t r).sum
/-- cumulative emissions -/
noncomputable def pathCumulative : ℕ → ℝ
  | 0 => 0
  | t + 1 => pathCumulative t + (if p.cumulative_emissions_trapz then
      p.dt * (pathWorld p a (t + 1) + pathWorld p a t) / 2 else p.dt * pathWorld p a (t + 1))
/-- temperature -/
noncomputable def pathTemperature (t : ℕ) : ℝ := p.T0 + p.TCRE * pathCumulative p a t
/-- the three contributions to sea-level rise: thermal expansion, glaciers, Greenland -/
noncomputable def pathSea : ℕ → ℝ × ℝ × ℝ
  | 0 => (0.0920666936642 + 0.024076141150722 * (0.5 * p.T0 - 0.0920666936642), 0.015, 0.006)
  | t + 1 =>
    let (th, gs, gi) := pathSea t
    let T := pathTemperature p a t
    ((1 - 0.024076141150722) ^ (p.dt / 10) * th + 0.024076141150722 * (p.dt / 10) * (T * 0.5),
     gs + 0.0008 / 0.26 * p.dt * (0.26 - gs) * (T + 1),
     gi + p.dt / 10 * (1 / 100) * (1.11860082 * T + 0.6) * (1 - gi / 7.3))
/-- total sea-level rise -/
noncomputable def pathSeaLevel (t : ℕ) : ℝ :=
  (pathSea p a t).1 + (pathSea p a t).2.1 + (pathSea p a t).2.2

/-- The abatement path respects the configured limits. -/
structure PathWithinLimits : Prop where
  starts_at_zero : ∀ r ∈ p.regions, a 0 r = 0
  range : ∀ t ≤ p.tf, ∀ r ∈ p.regions, 0 ≤ a t r ∧ a t r ≤ 1
  /-- a configured temperature target (`none`: no target) is met from 2100 on -/
  target : ∀ T, p.temperature_target = some T → ∀ t ≤ p.tf, 2100 ≤ p.year t → pathTemperature p a t ≤ T
  /-- a configured carbon budget is met from 2100 on, with net-zero emissions if these are asked for -/
  budget : ∀ b, p.budget = some b → ∀ t ≤ p.tf, 2100 ≤ p.year t → pathCumulative p a t ≤ b ∧
    (p.no_pos_emissions_after_budget_year = true → pathWorld p a t ≤ 0)
  inertia_global : ∀ i, p.inertia_global = some i → ∀ t < p.tf,
    p.dt * i * (p.regions.map fun r => p.baseline_emissions 0 r).sum ≤ pathWorld p a (t + 1) - pathWorld p a t
  inertia_regional : ∀ i, p.inertia_regional = some i → ∀ t < p.tf, ∀ r ∈ p.regions,
    p.dt * i * p.baseline_emissions 0 r ≤ pathEmissions p a (t + 1) r - pathEmissions p a t r
  min_global : ∀ l, p.global_min_level = some l → ∀ t ≤ p.tf, l ≤ pathWorld p a t
  min_regional : ∀ l, p.regional_min_level = some l → ∀ t ≤ p.tf, ∀ r ∈ p.regions, l ≤ pathEmissions p a t r
  non_increasing : p.non_increasing_emissions_after_2100 = true → ∀ t < p.tf, 2100 < p.year t →
    ∀ r ∈ p.regions, pathEmissions p a (t + 1) r ≤ pathEmissions p a t r
  cost_floor : p.rel_mitigation_costs_min_level ≤ 0
  /-- the carbon price stays below the largest value the model allows (twice the cost of full abatement) -/
  price : ∀ t ≤ p.tf, ∀ r ∈ p.regions, a t r = 0 ∨
    (p.cumulative_emissions_trapz = true ∧ p.MAC_scaling_factor r * a t r ^ p.MAC_beta ≤ 2)
  /-- no step melts more ice than there is -/
  melt : ∀ t ≤ p.tf, 0.0008 * p.dt * (pathTemperature p a t + 1) ≤ 0.26 ∧
    p.dt * (1.11860082 * pathTemperature p a t + 0.6) ≤ 7300
  /-- sea-level damages stay within the range the model allows for them -/
  sea_damages : ∀ t ≤ p.tf, ∀ r ∈ p.regions,
    p.damage_scale_factor * (formVal (pathSeaLevel p a t) p.slr r - formVal (pathSeaLevel p a 0) p.slr r)
      ∈ Set.Icc (-1 / 2 : ℝ) (7 / 10)

/-- climate damages as a fraction of GDP -/
noncomputable def pathDamage (t : ℕ) (r : String) : ℝ :=
  p.damage_scale_factor *
    (formVal (pathTemperature p a t - 0.6) p.noslr r - formVal (p.T0 - 0.6) p.noslr r) +
  p.damage_scale_factor * (formVal (pathSeaLevel p a t) p.slr r - formVal (pathSeaLevel p a 0) p.slr r)

/-- Ordinary data for emissions, learning and damages. -/
structure OrdinaryData (md : Modules) (p : Params) : Prop where
  baseline_nonneg : ∀ t ≤ p.tf, ∀ r ∈ p.regions, 0 ≤ p.baseline_emissions t r
  T0_nonneg : 0 ≤ p.T0
  TCRE_nonneg : 0 ≤ p.TCRE
  lbd_le : p.LBD_rate ≤ 1
  lot_nonneg : 0 ≤ p.LOT_rate
  gamma_nonneg : 0 ≤ p.MAC_gamma
  scaling_nonneg : ∀ r ∈ p.regions, 0 ≤ p.MAC_scaling_factor r
  reversible : 1 ≤ p.perc_reversible_damages
  start : p.beginyear ≤ 2100
  /-- with climate damages, every region has a damage function the model knows -/
  forms : md.damage = .COACCH → ∀ r ∈ p.regions, ∀ x, FormOk x p.noslr r ∧ FormOk x p.slr r
end Spec

variable {md : Modules} {p : Params} {a : ℕ → String → ℝ}

namespace Path
variable (p a)

/-- The drivers of the construction: the abatement path, and no trade or transfers. -/
def x : Drivers := ⟨a, fun _ _ => 0, fun _ _ => 0, fun _ => 0, none⟩

theorem em_eq (t : ℕ) (r : String) : (x a).em p t r = Spec.pathEmissions p a t r := rfl
theorem gE_eq (t : ℕ) : (x a).gE p t = Spec.pathWorld p a t := rfl
theorem cum_eq (t : ℕ) : (x a).cum p t = Spec.pathCumulative p a t := by
  induction t with
  | zero => rfl
  | succ t ih => simp only [Drivers.cum, Spec.pathCumulative, ih, gE_eq]
theorem temp_eq (t : ℕ) : (x a).temp p t = Spec.pathTemperature p a t := by
  simp only [Drivers.temp, Spec.pathTemperature, cum_eq]
theorem sea_eq (t : ℕ) : Spec.pathSea p a t = ((x a).th p t, (x a).gs p t, (x a).gi p t) := by
  induction t with
  | zero =>
    simp only [Spec.pathSea, Drivers.th, Drivers.gs, Drivers.gi, Prod.mk.injEq, and_true]
    unfold slr_thermal_expansion_init SeaLevelRise.thermal_init thermal_adjust_rate thermal_equil; ring
  | succ t ih =>
    simp only [Spec.pathSea, ih, Drivers.th, Drivers.gs, Drivers.gi, thermal_step, gsic_step, gis_step,
      temp_eq]
theorem slr_eq (t : ℕ) : (x a).slr p t = Spec.pathSeaLevel p a t := by
  simp only [Drivers.slr, Spec.pathSeaLevel, sea_eq]

end Path

section
variable (hadm : p.Admissible) (hd : Spec.OrdinaryData md p) (hl : Spec.PathWithinLimits p a)
  (hex : p.use_carbon_intensity_for_baseline = false)
include hadm hd hl

theorem Path.em_nonneg {t : ℕ} (ht : t ≤ p.tf) {r : String} (hr : r ∈ p.regions) :
    0 ≤ Spec.pathEmissions p a t r :=
  mul_nonneg (by linarith [(hl.range t ht r hr).2]) (hd.baseline_nonneg t ht r hr)

theorem Path.world_nonneg {t : ℕ} (ht : t ≤ p.tf) : 0 ≤ Spec.pathWorld p a t :=
  sumR_nonneg (p := p) fun r hr => Path.em_nonneg hadm hd hl ht hr

theorem Path.cum_nonneg {t : ℕ} (ht : t ≤ p.tf) : 0 ≤ Spec.pathCumulative p a t := by
  induction t with
  | zero => exact le_rfl
  | succ t ih =>
    have h1 := Path.world_nonneg hadm hd hl ht
    have h2 := Path.world_nonneg hadm hd hl (t := t) (by omega)
    have h3 := ih (by omega)
    have := hadm.dt_pos
    simp only [Spec.pathCumulative]
    split <;> positivity

/-- Cumulative emissions stay below the cumulative baseline of the learning equation. -/
theorem Path.cum_le (hz : p.cumulative_emissions_trapz = true) {t : ℕ} (ht : t ≤ p.tf) :
    Spec.pathCumulative p a t ≤ p.cumulative_global_baseline_emissions t := by
  rw [C24_baseline_cumulative]
  induction t with
  | zero => simp [Spec.pathCumulative]
  | succ t ih =>
    have ih := ih (by omega)
    have hw : ∀ s ≤ p.tf, Spec.pathWorld p a s ≤ p.sumR fun r => p.baseline_emissions s r := by
      intro s hs
      refine sumR_le fun r hr => ?_
      have h1 := (hl.range s hs r hr).1
      have h2 := hd.baseline_nonneg s hs r hr
      unfold Spec.pathEmissions
      nlinarith
    have h1 := hw (t + 1) ht
    have h2 := hw t (by omega)
    have hdt := hadm.dt_pos
    simp only [Spec.pathCumulative, hz, if_true, Finset.sum_range_succ]
    have e : p.sumR (fun r => ∑ s ∈ Finset.range t,
          p.dt * (p.baseline_emissions (s + 1) r + p.baseline_emissions s r) / 2 +
          p.dt * (p.baseline_emissions (t + 1) r + p.baseline_emissions t r) / 2) =
        p.sumR (fun r => ∑ s ∈ Finset.range t,
          p.dt * (p.baseline_emissions (s + 1) r + p.baseline_emissions s r) / 2) +
        p.dt / 2 * (p.sumR (fun r => p.baseline_emissions (t + 1) r) + p.sumR fun r => p.baseline_emissions t r) := by
      have e2 : p.sumR (fun r => p.baseline_emissions (t + 1) r) + p.sumR (fun r => p.baseline_emissions t r) =
          p.sumR fun r => p.baseline_emissions (t + 1) r + p.baseline_emissions t r := sumR_add.symm
      rw [sumR_add, e2, ← sumR_mul_left]
      congr 1
      exact sumR_congr fun r _ => by ring
    have e' := e.ge
    refine le_trans ?_ e'
    have : p.dt * (Spec.pathWorld p a (t + 1) + Spec.pathWorld p a t) / 2 ≤
        p.dt / 2 * (p.sumR (fun r => p.baseline_emissions (t + 1) r) + p.sumR fun r => p.baseline_emissions t r) := by
      nlinarith
    exact add_le_add ih this

theorem Path.learn_range {t : ℕ} (ht : t ≤ p.tf)
    (hc : Spec.pathCumulative p a t ≤ p.cumulative_global_baseline_emissions t) :
    0 < (Path.x a).learn p t ∧ (Path.x a).learn p t ≤ 1 := by
  have hlog : p.log_LBD_rate ≤ 0 := by
    unfold Params.log_LBD_rate
    exact div_nonpos_of_nonpos_of_nonneg (Real.log_nonpos hadm.lbd_pos.le hd.lbd_le)
      (Real.log_nonneg (by norm_num))
  have h1 : 1 ≤ soft_min ((p.cumulative_global_baseline_emissions t - (Path.x a).cum p t) / p.LBD_scaling + 1) 1 := by
    have h2 := soft_min_gt_self
      ((p.cumulative_global_baseline_emissions t - (Path.x a).cum p t) / p.LBD_scaling + 1) one_pos
    have h4 : 0 ≤ (p.cumulative_global_baseline_emissions t - (Path.x a).cum p t) / p.LBD_scaling :=
      div_nonneg (by rw [Path.cum_eq]; linarith) hadm.lbd_scaling.le
    linarith
  have b1 : 0 < (Path.x a).lbd p t := Real.rpow_pos_of_pos (by linarith) _
  have b2 : (Path.x a).lbd p t ≤ 1 := Real.rpow_le_one_of_one_le_of_nonpos h1 hlog
  have h5 : (1 : ℝ) ≤ (1 + p.LOT_rate) ^ (t : ℝ) :=
    Real.one_le_rpow (by linarith [hd.lot_nonneg]) (Nat.cast_nonneg t)
  have b3 : 0 < Drivers.lot p t := by unfold Drivers.lot; positivity
  have b4 : Drivers.lot p t ≤ 1 := (div_le_one (by linarith)).2 h5
  exact ⟨mul_pos b1 b3, mul_le_one₀ b2 b3.le b4⟩

theorem Path.learn_pos (t : ℕ) : 0 < (Path.x a).learn p t :=
  mul_pos (Real.rpow_pos_of_pos (soft_min_pos_one _) _)
    (one_div_pos.2 (Real.rpow_pos_of_pos hadm.lot _))

theorem Path.price_eq (t : ℕ) (r : String) : (Path.x a).price p t r =
    (Path.x a).learn p t * p.MAC_scaling_factor r * p.MAC_gamma * a t r ^ p.MAC_beta := rfl

include hex in
/-- The construction meets all conditions. -/
theorem Path.ok (htr : md.trade ≠ .globalcostpool)
    (hpool : md.transfer = .globaldamagepool → md.damage = .COACCH →
      ∀ t ≤ p.tf, ∀ r ∈ p.regions, 0 ≤ Spec.pathDamage p a t r)
    (heff : p.effort_sharing_regime = "noregime" ∨
      (p.effort_sharing_regime = "equal_mitigation_costs" ∧ ∀ t ≤ p.tf, ∀ r ∈ p.regions, a t r = 0)) :
    (Path.x a).Ok md p := by
  have hT : ∀ t ≤ p.tf, 0 ≤ Spec.pathTemperature p a t := by
    intro t ht
    have := mul_nonneg hd.TCRE_nonneg (Path.cum_nonneg hadm hd hl ht)
    have := hd.T0_nonneg
    unfold Spec.pathTemperature; linarith
  have hsl := Drivers.slr_ranges (p := p) (x := Path.x a) hadm.dt_pos.le hd.T0_nonneg
    (fun t ht => by rw [Path.temp_eq]; exact hT t ht)
    (fun t ht => by rw [Path.temp_eq]; exact (hl.melt t ht).1)
    (fun t ht => by rw [Path.temp_eq]; exact (hl.melt t ht).2)
  have hbal : ∀ t r, (Path.x a).balance md t r = 0 := by
    intro t r; unfold Drivers.balance; cases md.trade <;> rfl
  have harea : ∀ t ≤ p.tf, ∀ r ∈ p.regions, 0 ≤ (Path.x a).area p t r := by
    intro t ht r hr
    have h1 := (Path.learn_pos hadm hd hl t).le
    have h2 := hd.scaling_nonneg r hr
    have h3 := hd.gamma_nonneg
    have h4 : 0 ≤ (a t r) ^ (p.MAC_beta + 1) := Real.rpow_nonneg (hl.range t ht r hr).1 _
    have h5 := hadm.beta_pos
    have h6 := hd.baseline_nonneg t ht r hr
    show 0 ≤ (Path.x a).learn p t * p.MAC_scaling_factor r * p.MAC_gamma * a t r ^ (p.MAC_beta + 1) /
      (p.MAC_beta + 1) * p.baseline_emissions t r
    positivity
  have hcost : ∀ t r, (Path.x a).cost md p t r = (Path.x a).area p t r := by
    intro t r; unfold Drivers.cost; rw [hbal, add_zero]
  have ne1 : "noregime" ≠ "equal_mitigation_costs" := by decide
  have ne2 : "noregime" ≠ "equal_total_costs" := by decide
  have ne3 : "noregime" ≠ "per_cap_convergence" := by decide
  have ne4 : "equal_mitigation_costs" ≠ "equal_total_costs" := by decide
  have ne5 : "equal_mitigation_costs" ≠ "per_cap_convergence" := by decide
  constructor
  case a_init => exact hl.starts_at_zero
  case a_nonneg => exact fun t ht r hr => (hl.range t ht r hr).1
  case a_le => exact fun t ht r hr => (hl.range t ht r hr).2.trans (by norm_num)
  case exogenous => exact fun _ => rfl
  case endogenous => intro h; rw [hex] at h; cases h
  case trade => exact htr
  case bal_sum => intro _ t ht; exact sumR_zero
  case tr_init => intro _ r hr; rfl
  case tr_sum => intro _ t ht; exact sumR_zero
  case tr_max =>
    intro hm t ht r hr
    have hg := (Path.x a).gross_pos md p hadm ht hr
    have hD : 0 ≤ (Path.x a).dam md p t r := by
      unfold Drivers.dam
      cases hdm : md.damage with
      | nodamage => exact le_rfl
      | COACCH =>
        have := hpool hm hdm t ht r hr
        unfold Spec.pathDamage at this
        rw [← Path.temp_eq, ← Path.slr_eq, ← Path.slr_eq] at this
        exact this
    show -(_) * _ ≤ (0 : ℝ)
    nlinarith [mul_nonneg hD hg.le]
  case target => intro t ht T hT' hy; rw [Path.temp_eq]; exact hl.target T hT' t ht hy
  case reversible => intro _; exact hd.reversible
  case budget => intro t ht b hb hy; rw [Path.cum_eq]; exact (hl.budget b hb t ht hy).1
  case cum_nonneg => intro t ht; rw [Path.cum_eq]; exact Path.cum_nonneg hadm hd hl ht
  case global_inertia => exact fun t ht i hi => hl.inertia_global i hi t ht
  case regional_inertia => exact fun t ht r hr i hi => hl.inertia_regional i hi t ht r hr
  case global_min => exact fun t ht l hl' => hl.min_global l hl' t ht
  case regional_min => exact fun t ht r hr l hl' => hl.min_regional l hl' t ht r hr
  case start => exact hd.start
  case non_increasing => exact fun t ht r hr hy hn => hl.non_increasing hn t ht hy r hr
  case net_zero =>
    intro t ht hy hn hb
    obtain ⟨b, hb⟩ := Option.ne_none_iff_exists'.1 hb
    exact (hl.budget b hb t ht hy).2 hn
  case slr_nonneg =>
    intro t ht
    have := hsl t ht
    exact ⟨this.1, by linarith [this.2.1.1], by linarith [this.2.2.1]⟩
  case forms =>
    intro hm t ht r hr
    have hf := hd.forms hm r hr
    exact ⟨(hf _).1, (hf _).1, (hf _).2, (hf _).2⟩
  case damS_bounds =>
    intro _ t ht r hr
    have := hl.sea_damages t ht r hr
    rw [← Path.slr_eq, ← Path.slr_eq] at this
    exact this
  case price_nonneg =>
    intro t ht r hr
    have h1 := (Path.learn_pos hadm hd hl t).le
    have h2 := hd.scaling_nonneg r hr
    have h3 := hd.gamma_nonneg
    have h4 : 0 ≤ (a t r) ^ p.MAC_beta := Real.rpow_nonneg (hl.range t ht r hr).1 _
    rw [Path.price_eq hadm hd hl]; positivity
  case price_le =>
    intro t ht r hr
    have h3 := hd.gamma_nonneg
    rw [Path.price_eq hadm hd hl]
    rcases hl.price t ht r hr with h0 | ⟨hz, h0⟩
    · rw [h0, Real.zero_rpow hadm.beta_pos.ne', mul_zero]; positivity
    · obtain ⟨l1, l2⟩ := Path.learn_range hadm hd hl ht (Path.cum_le hadm hd hl hz ht)
      have h4 : 0 ≤ p.MAC_scaling_factor r * a t r ^ p.MAC_beta :=
        mul_nonneg (hd.scaling_nonneg r hr) (Real.rpow_nonneg (hl.range t ht r hr).1 _)
      have e : (Path.x a).learn p t * p.MAC_scaling_factor r * p.MAC_gamma * a t r ^ p.MAC_beta =
        p.MAC_gamma * ((Path.x a).learn p t * (p.MAC_scaling_factor r * a t r ^ p.MAC_beta)) := by ring
      rw [e]
      have : (Path.x a).learn p t * (p.MAC_scaling_factor r * a t r ^ p.MAC_beta) ≤ 2 := by nlinarith
      nlinarith
  case rel_costs_min =>
    intro t ht r hr
    have hg := (Path.x a).gross_pos md p hadm ht hr
    have h1 : 0 ≤ (Path.x a).cost md p t r / (Path.x a).gross md p t r := by
      rw [hcost]; exact div_nonneg (harea t ht r hr) hg.le
    have := hl.cost_floor
    split <;> linarith
  case effort =>
    constructor
    · intro t ht r hr he
      rcases heff with h | ⟨_, h⟩
      · rw [h] at he; exact absurd he ne1
      · have h0 : ((Path.x a).env md p).R .rel_mitigation_costs t r = 0 := by
          show (Path.x a).cost md p t r / (Path.x a).gross md p t r = 0
          have : (Path.x a).area p t r = (Path.x a).learn p t * p.MAC_scaling_factor r * p.MAC_gamma *
            a t r ^ (p.MAC_beta + 1) / (p.MAC_beta + 1) * p.baseline_emissions t r := rfl
          rw [hcost, this, h t ht r hr, Real.zero_rpow (by linarith [hadm.beta_pos])]
          simp
        have h1 : ((Path.x a).env md p).G .effort_sharing_common_level t = 0 := rfl
        rw [h0, h1]; norm_num
    · intro t ht r hr he
      rcases heff with h | ⟨h, _⟩
      · rw [h] at he; exact absurd he ne2
      · rw [h] at he; exact absurd he ne4
    · intro t ht r hr he
      rcases heff with h | ⟨h, _⟩
      · rw [h] at he; exact absurd he ne3
      · rw [h] at he; exact absurd he ne5
  case effort_scope =>
    intro he
    rcases heff with h | ⟨h, _⟩
    · rw [h] at he; exact absurd he ne3
    · rw [h] at he; exact absurd he ne5
end

/-- With exogenous baseline emissions, every abatement path within the configured limits is part of a
solution. -/
theorem C49_path_feasible_exogenous (hadm : p.Admissible) (hd : Spec.OrdinaryData md p) (hl : Spec.PathWithinLimits p a)
    (hex : p.use_carbon_intensity_for_baseline = false) (htr : md.trade ≠ .globalcostpool)
    (hpool : md.transfer = .globaldamagepool → md.damage = .COACCH →
      ∀ t ≤ p.tf, ∀ r ∈ p.regions, 0 ≤ Spec.pathDamage p a t r)
    (heff : p.effort_sharing_regime = "noregime" ∨
      (p.effort_sharing_regime = "equal_mitigation_costs" ∧ ∀ t ≤ p.tf, ∀ r ∈ p.regions, a t r = 0)) :
    ∃ σ, Solution md p σ ∧ ∀ t r, σ.R .relative_abatement t r = a t r :=
  ⟨(Path.x a).env md p, Drivers.build_solution hadm (Path.ok hadm hd hl hex htr hpool heff), fun _ _ => rfl⟩

/-- The baseline itself respects the limits the user configured on emissions.  (Nothing is assumed about
targets that are not configured: all conditions are about `some` limit.) -/
structure Spec.BaselineWithinLimits (p : Params) : Prop where
  no_target : p.temperature_target = none
  no_budget : p.budget = none
  inertia_global : ∀ i, p.inertia_global = some i → ∀ t < p.tf,
    p.dt * i * (p.regions.map fun r => p.baseline_emissions 0 r).sum ≤
      (p.regions.map fun r => p.baseline_emissions (t + 1) r).sum -
        (p.regions.map fun r => p.baseline_emissions t r).sum
  inertia_regional : ∀ i, p.inertia_regional = some i → ∀ t < p.tf, ∀ r ∈ p.regions,
    p.dt * i * p.baseline_emissions 0 r ≤ p.baseline_emissions (t + 1) r - p.baseline_emissions t r
  min_global : ∀ l, p.global_min_level = some l → ∀ t ≤ p.tf,
    l ≤ (p.regions.map fun r => p.baseline_emissions t r).sum
  min_regional : ∀ l, p.regional_min_level = some l → ∀ t ≤ p.tf, ∀ r ∈ p.regions,
    l ≤ p.baseline_emissions t r
  non_increasing : p.non_increasing_emissions_after_2100 = true → ∀ t < p.tf, 2100 < p.year t →
    ∀ r ∈ p.regions, p.baseline_emissions (t + 1) r ≤ p.baseline_emissions t r
  cost_floor : p.rel_mitigation_costs_min_level ≤ 0
  melt : ∀ t ≤ p.tf, 0.0008 * p.dt * (Spec.pathTemperature p (fun _ _ => 0) t + 1) ≤ 0.26 ∧
    p.dt * (1.11860082 * Spec.pathTemperature p (fun _ _ => 0) t + 0.6) ≤ 7300
  sea_damages : ∀ t ≤ p.tf, ∀ r ∈ p.regions,
    p.damage_scale_factor * (formVal (Spec.pathSeaLevel p (fun _ _ => 0) t) p.slr r -
      formVal (Spec.pathSeaLevel p (fun _ _ => 0) 0) p.slr r) ∈ Set.Icc (-1 / 2 : ℝ) (7 / 10)

theorem Spec.pathEmissions_zero (p : Params) (t : ℕ) (r : String) :
    Spec.pathEmissions p (fun _ _ => 0) t r = p.baseline_emissions t r := by
  simp [Spec.pathEmissions]
theorem Spec.pathWorld_zero (p : Params) (t : ℕ) :
    Spec.pathWorld p (fun _ _ => 0) t = (p.regions.map fun r => p.baseline_emissions t r).sum := by
  simp [Spec.pathWorld, Spec.pathEmissions_zero]

/-- Without a policy target the path without any abatement is a solution; its emissions are the baseline
emissions and abatement costs are zero. -/
theorem C49_no_policy_feasible_exogenous (hadm : p.Admissible) (hd : Spec.OrdinaryData md p)
    (hl : Spec.BaselineWithinLimits p)
    (hex : p.use_carbon_intensity_for_baseline = false) (htr : md.trade ≠ .globalcostpool)
    (hpool : md.transfer = .globaldamagepool → md.damage = .COACCH →
      ∀ t ≤ p.tf, ∀ r ∈ p.regions, 0 ≤ Spec.pathDamage p (fun _ _ => 0) t r)
    (heff : p.effort_sharing_regime = "noregime" ∨ p.effort_sharing_regime = "equal_mitigation_costs") :
    ∃ σ, Solution md p σ ∧ ∀ t ≤ p.tf, ∀ r ∈ p.regions, σ.R .relative_abatement t r = 0 ∧
      σ.R .regional_emissions t r = p.baseline_emissions t r ∧ σ.R .area_under_MAC t r = 0 := by
  obtain ⟨σ, hσ, ha⟩ := C49_path_feasible_exogenous (md := md) (a := fun _ _ => 0) hadm hd
    { starts_at_zero := fun _ _ => rfl
      range := fun _ _ _ _ => ⟨le_rfl, zero_le_one⟩
      target := fun T hT => by rw [hl.no_target] at hT; cases hT
      budget := fun b hb => by rw [hl.no_budget] at hb; cases hb
      inertia_global := by simp only [Spec.pathWorld_zero]; exact hl.inertia_global
      inertia_regional := by simp only [Spec.pathEmissions_zero]; exact hl.inertia_regional
      min_global := by simp only [Spec.pathWorld_zero]; exact hl.min_global
      min_regional := by simp only [Spec.pathEmissions_zero]; exact hl.min_regional
      non_increasing := by simp only [Spec.pathEmissions_zero]; exact hl.non_increasing
      cost_floor := hl.cost_floor
      price := fun _ _ _ _ => Or.inl rfl
      melt := hl.melt
      sea_damages := hl.sea_damages } hex htr hpool
    (heff.imp_right fun h => ⟨h, fun _ _ _ _ => rfl⟩)
  refine ⟨σ, hσ, fun t ht r hr => ⟨ha t r, ?_, ?_⟩⟩
  · rcases Nat.eq_zero_or_pos t with rfl | h0
    · exact (C32_emissions hσ).1 r hr
    · rw [C23_abated_baseline hσ ht h0 hr, ha, (C23_baseline hσ ht hr).1 hex]; ring
  · rw [(hσ.eqs.mitigation.area t ht r hr).2]
    simp only [acVal]
    rw [ha, Real.zero_rpow (by linarith [hadm.beta_pos])]
    simp

end Mimosa
