import Verif.Props.Optimum

/-!
# C68: cheaper abatement, faster learning and milder damages never make the outcome worse
-/

set_option linter.unusedSimpArgs false
set_option linter.unusedVariables false

namespace Mimosa
open Damages

variable {md : Modules} {p : Params} {σ τ : Env} {γ lot s k : ℝ} {sc : String → ℝ}

/-- The same world with other abatement cost parameters (`economics - MAC - gamma`, the regional cost level, the rate
of exogenous learning) and another damage scale factor. -/
abbrev Spec.withCosts (p : Params) (γ : ℝ) (sc : String → ℝ) (lot s : ℝ) : Params :=
  { p with MAC_gamma := γ, MAC_scaling_factor := sc, LOT_rate := lot, damage_scale_factor := s }

/-- The same, with another climate sensitivity too. -/
abbrev Spec.withWorld (p : Params) (γ : ℝ) (sc : String → ℝ) (lot s k : ℝ) : Params :=
  { p with MAC_gamma := γ, MAC_scaling_factor := sc, LOT_rate := lot, damage_scale_factor := s, TCRE := k }

/-- Abatement is not more expensive and damages are not larger than in `p`. -/
structure Spec.Milder (p : Params) (γ : ℝ) (sc : String → ℝ) (lot s : ℝ) : Prop where
  gamma : 0 ≤ γ ∧ γ ≤ p.MAC_gamma
  level : ∀ r ∈ p.regions, 0 ≤ sc r ∧ sc r ≤ p.MAC_scaling_factor r
  learning : p.LOT_rate ≤ lot
  damage : 0 ≤ s ∧ s ≤ p.damage_scale_factor

/-- The assumptions on the first of the two solutions: damages between nothing and the whole product, and the savings
for one step's abatement costs do not use up the capital stock. -/
structure Spec.Moderate (p : Params) (σ : Env) : Prop where
  damages : ∀ t ≤ p.tf, ∀ r ∈ p.regions, 0 ≤ σ.R .damage_costs t r ∧ σ.R .damage_costs t r ≤ 1
  costs : ∀ t < p.tf, ∀ r ∈ p.regions, p.dt * (p.sr * σ.R .mitigation_costs (t + 1) r) < σ.R .capital_stock t r

/-- The two assignments have the same relative abatement in all model years after the first. -/
def Spec.SamePolicy (p : Params) (σ τ : Env) : Prop :=
  ∀ t : ℕ, 0 < t → t ≤ p.tf → ∀ r ∈ p.regions, τ.R .relative_abatement t r = σ.R .relative_abatement t r

/-- The settings of the comparison: no transfers or effort sharing, no requirement of strictly positive costs, damages
entirely reversible, start before 2100, and baseline emissions that are not negative. -/
structure Spec.UnsharedPolicy (md : Modules) (p : Params) : Prop where
  transfer : md.transfer = .notransfer
  regime : p.effort_sharing_regime = "noregime"
  cost_floor : p.rel_mitigation_costs_min_level ≤ 0
  reversible : 1 ≤ p.perc_reversible_damages
  start : p.beginyear ≤ 2100
  baseline : ∀ t ≤ p.tf, ∀ r ∈ p.regions, 0 ≤ p.baseline_emissions t r

/-- … and no emission trade. -/
structure Spec.PlainPolicy (md : Modules) (p : Params) : Prop extends Spec.UnsharedPolicy md p where
  trade : md.trade = .notrade

namespace Milder

theorem admissible (hadm : p.Admissible) (hm : Spec.Milder p γ sc lot s) :
    (Spec.withWorld p γ sc lot s k).Admissible :=
  { hadm with lot := by have := hadm.lot; have := hm.learning; show 0 < 1 + lot; linarith }

section
variable (hadm : p.Admissible) (hm : Spec.Milder p γ sc lot s) (h : Solution md p σ)
  (h' : Solution md (Spec.withWorld p γ sc lot s k) τ) (hf : md.transfer = .notransfer)
  (hcost : ∀ t ≤ p.tf, ∀ r ∈ p.regions, τ.R .mitigation_costs t r ≤ σ.R .mitigation_costs t r)
  (hdam : ∀ t ≤ p.tf, ∀ r ∈ p.regions, τ.R .damage_costs t r ≤ σ.R .damage_costs t r)
  (ho : Spec.Moderate p σ)
include hadm hm h h' hf hcost hdam ho

theorem capital {r : String} (hr : r ∈ p.regions) :
    ∀ {t : ℕ}, t ≤ p.tf → σ.R .capital_stock t r ≤ τ.R .capital_stock t r := by
  intro t
  induction t with
  | zero =>
    intro _
    rw [h.eqs.economy.capital_init r hr, h'.eqs.economy.capital_init r hr]
  | succ t ih =>
    intro ht
    have hle := ih (by omega)
    have hA : (0 : ℝ) < 2 - (1 - p.dk) ^ p.dt := by linarith [dk_pow_le hadm]
    have e := h.capital_eq hadm ht hr
    have e' := h'.capital_eq (admissible hadm hm) ht hr
    have n := h.eqs.economy.net (t + 1) ht r hr
    have n' := h'.eqs.economy.net (t + 1) ht r hr
    have g := (h.eqs.economy.gross t ht r hr).2
    have g' := (h'.eqs.economy.gross t ht r hr).2
    have eT : get_TFP_value (Spec.withWorld p γ sc lot s k) (t + 1) r = get_TFP_value p (t + 1) r :=
      TFP_congr (p := p) (p' := Spec.withWorld p γ sc lot s k) rfl (fun _ => rfl) rfl rfl rfl (fun _ => rfl) rfl _
    rw [eT] at g'
    rw [hf] at n n'
    simp only [transferVal, sub_zero] at n n'
    have hgp := h.gross_pos hadm ht hr
    rw [g] at hgp
    have hF : 0 < get_TFP_value p (t + 1) r * p.population (t + 1) r ^ (1 - p.alpha) :=
      (mul_pos_iff_of_pos_right (Real.rpow_pos_of_pos (soft_min_pos_ten _) _)).1 hgp
    have hds : 0 ≤ p.dt * p.sr := mul_nonneg hadm.dt_pos.le hadm.sr_nonneg
    have hc := mul_le_mul_of_nonneg_left (hcost (t + 1) ht r hr) hds
    have hl : (if p.ignore_damages then (0 : ℝ) else τ.R .damage_costs (t + 1) r) ≤
        (if p.ignore_damages then 0 else σ.R .damage_costs (t + 1) r) := by
      split <;> [exact le_rfl; exact hdam (t + 1) ht r hr]
    set F := get_TFP_value p (t + 1) r * p.population (t + 1) r ^ (1 - p.alpha) with hFd
    set D := (if p.ignore_damages then (0 : ℝ) else σ.R .damage_costs (t + 1) r) with hD
    set D' := (if p.ignore_damages then (0 : ℝ) else τ.R .damage_costs (t + 1) r) with hD'
    refine capital_le (A := 2 - (1 - p.dk) ^ p.dt)
      (B := σ.R .capital_stock t r - p.dt * p.sr * σ.R .mitigation_costs (t + 1) r)
      (B' := τ.R .capital_stock t r - p.dt * p.sr * τ.R .mitigation_costs (t + 1) r)
      (C := p.dt * p.sr * F * (1 - D)) (C' := p.dt * p.sr * F * (1 - D'))
      hA ?_ hadm.alpha_nonneg hadm.alpha_lt (by linarith) ?_ ?_ ?_
    · have := ho.costs t ht r hr; linarith
    · exact mul_le_mul_of_nonneg_left (by linarith) (mul_nonneg hds hF.le)
    · rw [e, n, g]; ring
    · have e'' : (2 - (1 - p.dk) ^ p.dt) * τ.R .capital_stock (t + 1) r = _ := e'
      rw [e'', n', g']
      show _ + p.dt * (p.sr * _) = _
      ring

theorem gross {t : ℕ} (ht : t ≤ p.tf) {r : String} (hr : r ∈ p.regions) :
    σ.R .GDP_gross t r ≤ τ.R .GDP_gross t r := by
  cases t with
  | zero => rw [h.eqs.economy.gross_init r hr, h'.eqs.economy.gross_init r hr]
  | succ t =>
    have hK := capital hadm hm h h' hf hcost hdam ho hr ht
    have g' := (h'.eqs.economy.gross t ht r hr).2
    have eT : get_TFP_value (Spec.withWorld p γ sc lot s k) (t + 1) r = get_TFP_value p (t + 1) r :=
      TFP_congr (p := p) (p' := Spec.withWorld p γ sc lot s k) rfl (fun _ => rfl) rfl rfl rfl (fun _ => rfl) rfl _
    rw [eT] at g'
    rw [(h.eqs.economy.gross t ht r hr).2, g']
    have hgp := h.gross_pos hadm ht hr
    rw [(h.eqs.economy.gross t ht r hr).2] at hgp
    have hF : 0 < get_TFP_value p (t + 1) r * p.population (t + 1) r ^ (1 - p.alpha) :=
      (mul_pos_iff_of_pos_right (Real.rpow_pos_of_pos (soft_min_pos_ten _) _)).1 hgp
    refine mul_le_mul_of_nonneg_left ?_ hF.le
    exact Real.rpow_le_rpow (soft_min_pos_ten _).le ((soft_min_strictMono (by norm_num)).monotone hK) hadm.alpha_nonneg

theorem net {t : ℕ} (ht : t ≤ p.tf) {r : String} (hr : r ∈ p.regions) :
    σ.R .GDP_net t r ≤ τ.R .GDP_net t r := by
  have hg := gross hadm hm h h' hf hcost hdam ho ht hr
  have hgp := h.gross_pos hadm ht hr
  have n := h.eqs.economy.net t ht r hr
  have n' := h'.eqs.economy.net t ht r hr
  rw [hf] at n n'
  simp only [transferVal, sub_zero] at n n'
  rw [n, n']
  have hd := ho.damages t ht r hr
  have := hdam t ht r hr
  have hc := hcost t ht r hr
  show _ ≤ τ.R .GDP_gross t r * (1 - (if p.ignore_damages then (0 : ℝ) else τ.R .damage_costs t r)) - _
  split
  · linarith
  · have : σ.R .GDP_gross t r * (1 - σ.R .damage_costs t r) ≤ τ.R .GDP_gross t r * (1 - τ.R .damage_costs t r) :=
      mul_le_mul hg (by linarith) (by linarith) (by linarith)
    linarith

theorem consumption (hsr : p.sr ≤ 1) {t : ℕ} (ht : t ≤ p.tf) {r : String} (hr : r ∈ p.regions) :
    σ.R .consumption t r ≤ τ.R .consumption t r := by
  rw [h.eqs.economy.consumption t ht r hr, h'.eqs.economy.consumption t ht r hr]
  exact mul_le_mul_of_nonneg_left (net hadm hm h h' hf hcost hdam ho ht hr) (by linarith)

theorem welfare (hsr : p.sr ≤ 1) {t : ℕ} (ht : t ≤ p.tf) : σ.G .yearly_welfare t ≤ τ.G .yearly_welfare t := by
  have hc : ∀ r ∈ p.regions, σ.R .consumption t r ≤ τ.R .consumption t r := fun r hr =>
    consumption hadm hm h h' hf hcost hdam ho hsr ht hr
  have w' : WelfareEqs p τ md.welfare := by
    have := h'.eqs.welfare
    cases hw : md.welfare <;> rw [hw] at this <;> exact this
  by_cases hall : ∃ r ∈ p.regions, σ.R .consumption t r < τ.R .consumption t r
  · exact (welfare_lt h.regions_ne h.eqs.welfare w' ht (hadm.pop_pos t ht) hc hall).le
  · push Not at hall
    exact (welfare_eq h.eqs.welfare w' ht fun r hr => le_antisymm (hc r hr) (hall r hr)).1.le

theorem objective (hsr : p.sr ≤ 1) (hob : md.objective = .utility) :
    Spec.objectiveValue md p σ ≤ Spec.objectiveValue md p τ := by
  unfold Spec.objectiveValue
  rw [hob]
  show σ.G .NPV p.tf ≤ τ.G .NPV p.tf
  have e' : τ.G .NPV p.tf = Spec.discountedSum p (fun t => τ.G .yearly_welfare t) p.tf := C45_utility h' hob le_rfl
  rw [C45_utility h hob le_rfl, e']
  refine Finset.sum_le_sum fun t ht => ?_
  have ht' : t + 1 ≤ p.tf := by simpa using ht
  have := hadm.dt_pos
  exact mul_le_mul_of_nonneg_left (welfare hadm hm h h' hf hcost hdam ho hsr ht') (by positivity)
end


/-! ### Emissions, climate, costs and damages of the two solutions -/

section
variable (h : Solution md p σ) (h' : Solution md (Spec.withWorld p γ sc lot s k) τ) (ha : Spec.SamePolicy p σ τ)
  (hex : p.use_carbon_intensity_for_baseline = false)
include h h' ha hex

theorem emissions {t : ℕ} (ht : t ≤ p.tf) :
    (∀ r ∈ p.regions, τ.R .regional_emissions t r = σ.R .regional_emissions t r) ∧
    τ.G .global_emissions t = σ.G .global_emissions t := by
  have key : ∀ r ∈ p.regions, τ.R .regional_emissions t r = σ.R .regional_emissions t r := by
    intro r hr
    rcases Nat.eq_zero_or_pos t with rfl | h0
    · exact ((C32_emissions h').1 r hr).trans ((C32_emissions h).1 r hr).symm
    · have e := C23_abated_baseline h ht h0 hr
      have e' := C23_abated_baseline h' ht h0 hr
      rw [(C23_baseline h ht hr).1 hex] at e
      rw [(C23_baseline h' ht hr).1 hex] at e'
      rw [e, e', ha t h0 ht r hr]
  refine ⟨key, ?_⟩
  rw [C23_global_is_sum h ht]
  exact (C23_global_is_sum h' ht).trans (sumR_congr (p := p) fun r hr => key r hr)

theorem cumulative {t : ℕ} (ht : t ≤ p.tf) : τ.G .cumulative_emissions t = σ.G .cumulative_emissions t := by
  induction t with
  | zero => exact h'.eqs.emissions.cumulative_init.trans h.eqs.emissions.cumulative_init.symm
  | succ t ih =>
    have e' := h'.eqs.emissions.cumulative t ht
    rw [h.eqs.emissions.cumulative t ht, e', ih (by omega),
      (emissions h h' ha hex (t := t) (by omega)).2, (emissions h h' ha hex ht).2]

theorem learning (hadm : p.Admissible) (hm : Spec.Milder p γ sc lot s) {t : ℕ} (ht : t ≤ p.tf) :
    0 < τ.G .learning_factor t ∧ τ.G .learning_factor t ≤ σ.G .learning_factor t := by
  have e := h.eqs.mitigation
  have e' := h'.eqs.mitigation
  have hl : 0 < 1 + lot := (admissible (k := k) hadm hm).lot
  have b : τ.G .LBD_factor t = σ.G .LBD_factor t := by
    have := (e'.lbd t ht).2
    rw [(e.lbd t ht).2, this, cumulative h h' ha hex ht]
    rfl
  have l' : τ.G .LOT_factor t = 1 / (1 + lot) ^ (t : ℝ) := (e'.lot t ht).2.2
  have hb : 0 < σ.G .LBD_factor t := by
    rw [(e.lbd t ht).2]; exact Real.rpow_pos_of_pos (soft_min_pos_one _) _
  have hp := Real.rpow_pos_of_pos hadm.lot (t : ℝ)
  rw [e.learning t ht, e'.learning t ht, b, l', (e.lot t ht).2.2]
  refine ⟨mul_pos hb (one_div_pos.2 (Real.rpow_pos_of_pos hl _)), mul_le_mul_of_nonneg_left ?_ hb.le⟩
  exact one_div_le_one_div_of_le hp
    (Real.rpow_le_rpow hadm.lot.le (by linarith [hm.learning]) (Nat.cast_nonneg t))

/-- Marginal and total costs of the same abatement are not larger. -/
theorem prices (hadm : p.Admissible) (hm : Spec.Milder p γ sc lot s) {t : ℕ} (ht : t ≤ p.tf) {r : String}
    (hr : r ∈ p.regions) : τ.R .carbonprice t r ≤ σ.R .carbonprice t r := by
  rcases Nat.eq_zero_or_pos t with rfl | h0
  · exact (h'.eqs.mitigation.carbonprice_init r hr).le.trans (h.eqs.mitigation.carbonprice_init r hr).ge
  have e := (h.eqs.mitigation.carbonprice t ht r hr).2
  have e' := (h'.eqs.mitigation.carbonprice t ht r hr).2
  have hl := learning h h' ha hex hadm hm ht
  have hpow := Real.rpow_nonneg (h.abatement_bounds ht hr).1 p.MAC_beta
  rw [e, e']
  show τ.G .learning_factor t * sc r * γ * τ.R .relative_abatement t r ^ p.MAC_beta ≤
    σ.G .learning_factor t * p.MAC_scaling_factor r * p.MAC_gamma * σ.R .relative_abatement t r ^ p.MAC_beta
  rw [ha t h0 ht r hr]
  have h1 := hm.gamma; have h2 := hm.level r hr
  have : 0 ≤ σ.G .learning_factor t := hl.1.le.trans hl.2
  refine mul_le_mul_of_nonneg_right (mul_le_mul (mul_le_mul hl.2 h2.2 h2.1 this) h1.2 h1.1
    (mul_nonneg this (h2.1.trans h2.2))) hpow

theorem costs (hadm : p.Admissible) (hm : Spec.Milder p γ sc lot s) (htr : md.trade = .notrade)
    (hb : ∀ t ≤ p.tf, ∀ r ∈ p.regions, 0 ≤ p.baseline_emissions t r) {t : ℕ} (ht : t ≤ p.tf)
    {r : String} (hr : r ∈ p.regions) :
    0 ≤ τ.R .mitigation_costs t r ∧ τ.R .mitigation_costs t r ≤ σ.R .mitigation_costs t r := by
  have e := (h.eqs.mitigation.mitigation_costs t ht r hr).2
  have e' := (h'.eqs.mitigation.mitigation_costs t ht r hr).2
  have f := (h.eqs.mitigation.carbonprice t ht r hr).2
  have f' := (h'.eqs.mitigation.carbonprice t ht r hr).2
  have hle := prices h h' ha hex hadm hm ht hr
  have b1 := hb t ht r hr
  have hβ := hadm.beta_pos
  have a1 := (h.abatement_bounds ht hr).1
  have a1' := (h'.abatement_bounds ht hr).1
  have p1 := (h'.price_bounds ht hr).1
  have aux : ∀ x : ℝ, 0 ≤ x → x ^ (p.MAC_beta + 1) = x ^ p.MAC_beta * x := by
    intro x hx
    rcases hx.eq_or_lt with rfl | hx
    · rw [Real.zero_rpow (by linarith), mul_zero]
    · rw [Real.rpow_add hx, Real.rpow_one]
  have c : σ.R .mitigation_costs t r =
      σ.R .carbonprice t r * σ.R .relative_abatement t r / (p.MAC_beta + 1) * p.baseline_emissions t r := by
    rw [e, htr, (C23_baseline h ht hr).1 hex, f]
    simp only [costBalanceVal, acVal, macVal, add_zero]
    rw [aux _ a1]; ring
  have c' : τ.R .mitigation_costs t r =
      τ.R .carbonprice t r * τ.R .relative_abatement t r / (p.MAC_beta + 1) * p.baseline_emissions t r := by
    rw [e', htr, (C23_baseline h' ht hr).1 hex, f']
    simp only [costBalanceVal, acVal, macVal, add_zero]
    rw [aux _ a1']; ring
  rw [c, c']
  refine ⟨by positivity, mul_le_mul_of_nonneg_right (div_le_div_of_nonneg_right ?_ (by linarith)) b1⟩
  rcases Nat.eq_zero_or_pos t with rfl | h0
  · have z : τ.R .carbonprice 0 r = 0 := h'.eqs.mitigation.carbonprice_init r hr
    have z0 : σ.R .carbonprice 0 r = 0 := h.eqs.mitigation.carbonprice_init r hr
    rw [z, z0, zero_mul, zero_mul]
  · rw [ha t h0 ht r hr]
    exact mul_le_mul_of_nonneg_right hle a1
end


section
variable (h : Solution md p σ) (h' : Solution md (Spec.withCosts p γ sc lot s) τ) (ha : Spec.SamePolicy p σ τ)
  (hex : p.use_carbon_intensity_for_baseline = false)
include h h' ha hex

theorem temperature {t : ℕ} (ht : t ≤ p.tf) : τ.G .temperature t = σ.G .temperature t := by
  have e' := h'.eqs.emissions.temperature t ht
  rw [h.eqs.emissions.temperature t ht, e', cumulative h h' ha hex ht]

theorem seaLevel {t : ℕ} (ht : t ≤ p.tf) : τ.G .total_SLR t = σ.G .total_SLR t := by
  have e := h.eqs.slr
  have e' := h'.eqs.slr
  have hs : ∀ t ≤ p.tf, τ.G .slr_thermal t = σ.G .slr_thermal t ∧
      τ.G .slr_cumgsic t = σ.G .slr_cumgsic t ∧ τ.G .slr_cumgis t = σ.G .slr_cumgis t := by
    intro t
    induction t with
    | zero =>
      intro _
      exact ⟨e'.thermal_init.trans e.thermal_init.symm, e'.gsic_init.trans e.gsic_init.symm,
        e'.gis_init.trans e.gis_init.symm⟩
    | succ t ih =>
      intro ht
      obtain ⟨i1, i2, i3⟩ := ih (by omega)
      have := temperature h h' ha hex (t := t) (by omega)
      rw [e.thermal t ht, e'.thermal t ht, e.gsic t ht, e'.gsic t ht, e.gis t ht,
        e'.gis t ht, i1, i2, i3, this]
      exact ⟨rfl, rfl, rfl⟩
  obtain ⟨s1, s2, s3⟩ := hs t ht
  rw [e.total t ht, e'.total t ht, s1, s2, s3]

/-- Damages are proportional to the scale factor. -/
theorem damages {t : ℕ} (ht : t ≤ p.tf) {r : String} (hr : r ∈ p.regions) :
    p.damage_scale_factor * τ.R .damage_costs t r = s * σ.R .damage_costs t r ∧
    (p.damage_scale_factor = s → τ.R .damage_costs t r = σ.R .damage_costs t r) := by
  have d := h.eqs.damages
  have d' := h'.eqs.damages
  cases hd : md.damage with
  | nodamage =>
    rw [hd] at d d'
    rw [d t ht r hr, d' t ht r hr]; simp
  | COACCH =>
    rw [hd] at d d'
    have e1 := (d'.noslr t ht r hr).2.2
    have e2 := (d'.slr t ht r hr).2.2
    rw [d.total t ht r hr, d'.total t ht r hr, (d.noslr t ht r hr).2.2, e1, (d.slr t ht r hr).2.2, e2,
      temperature h h' ha hex ht, seaLevel h h' ha hex ht, seaLevel h h' ha hex (Nat.zero_le _)]
    refine ⟨?_, fun e => ?_⟩
    · show _ * (s * _ + s * _) = _
      ring
    · show s * _ + s * _ = _
      rw [e]

theorem damages_le (hm : Spec.Milder p γ sc lot s) (ho : Spec.Moderate p σ) {t : ℕ} (ht : t ≤ p.tf) {r : String}
    (hr : r ∈ p.regions) : τ.R .damage_costs t r ≤ σ.R .damage_costs t r := by
  obtain ⟨e, e0⟩ := damages h h' ha hex ht hr
  have h1 := hm.damage
  have h2 := (ho.damages t ht r hr).1
  rcases eq_or_lt_of_le h1.2 with h3 | h3
  · exact (e0 h3.symm).le
  · have h4 : 0 < p.damage_scale_factor := h1.1.trans_lt h3
    refine le_of_mul_le_mul_left ?_ h4
    rw [e]
    exact mul_le_mul_of_nonneg_right h1.2 h2
end

/-! ### The same policy is possible in the milder world -/

/-- The abatement of `σ` (and payments `bal` between regions) as the driver of a new solution. -/
noncomputable def x (σ : Env) (bal : ℕ → String → ℝ) : Drivers :=
  ⟨fun t r => if t = 0 then 0 else σ.R .relative_abatement t r, fun t r => if t = 0 then 0 else bal t r, fun _ _ => 0,
    fun _ => 0, none⟩

section
variable {bal : ℕ → String → ℝ} (h : Solution md p σ) (hex : p.use_carbon_intensity_for_baseline = false)
include h hex

theorem em_eq {t : ℕ} (ht : t ≤ p.tf) {r : String} (hr : r ∈ p.regions) :
    (x σ bal).em (Spec.withWorld p γ sc lot s k) t r = σ.R .regional_emissions t r := by
  show (1 - (if t = 0 then 0 else _)) * p.baseline_emissions t r = _
  rcases Nat.eq_zero_or_pos t with rfl | h0
  · rw [(C32_emissions h).1 r hr]; simp
  · rw [C23_abated_baseline h ht h0 hr, (C23_baseline h ht hr).1 hex, if_neg (by omega)]

theorem gE_eq {t : ℕ} (ht : t ≤ p.tf) : (x σ bal).gE (Spec.withWorld p γ sc lot s k) t = σ.G .global_emissions t := by
  rw [C23_global_is_sum h ht]
  exact sumR_congr fun r hr => em_eq h hex ht hr

theorem cum_eq {t : ℕ} (ht : t ≤ p.tf) : (x σ bal).cum (Spec.withWorld p γ sc lot s k) t = σ.G .cumulative_emissions t := by
  induction t with
  | zero => exact h.eqs.emissions.cumulative_init.symm
  | succ t ih =>
    rw [h.eqs.emissions.cumulative t ht, Drivers.cum, ih (by omega), gE_eq h hex ht,
      gE_eq h hex (t := t) (Nat.le_of_succ_le ht)]

theorem temp_eq {t : ℕ} (ht : t ≤ p.tf) : (x σ bal).temp (Spec.withCosts p γ sc lot s) t = σ.G .temperature t := by
  rw [h.eqs.emissions.temperature t ht, Drivers.temp, cum_eq h hex ht]

theorem sea_eq {t : ℕ} (ht : t ≤ p.tf) : (x σ bal).th (Spec.withCosts p γ sc lot s) t = σ.G .slr_thermal t ∧
    (x σ bal).gs (Spec.withCosts p γ sc lot s) t = σ.G .slr_cumgsic t ∧ (x σ bal).gi (Spec.withCosts p γ sc lot s) t = σ.G .slr_cumgis t := by
  have e := h.eqs.slr
  induction t with
  | zero => exact ⟨e.thermal_init.symm, e.gsic_init.symm, e.gis_init.symm⟩
  | succ t ih =>
    obtain ⟨i1, i2, i3⟩ := ih (by omega)
    rw [e.thermal t ht, e.gsic t ht, e.gis t ht, Drivers.th, Drivers.gs, Drivers.gi, i1, i2, i3,
      temp_eq h hex (t := t) (Nat.le_of_succ_le ht)]
    exact ⟨rfl, rfl, rfl⟩

theorem slr_eq {t : ℕ} (ht : t ≤ p.tf) : (x σ bal).slr (Spec.withCosts p γ sc lot s) t = σ.G .total_SLR t := by
  obtain ⟨i1, i2, i3⟩ := sea_eq h hex ht
  rw [h.eqs.slr.total t ht, Drivers.slr, i1, i2, i3]

/-- The abatement of `σ` is possible in the other world if temperature, sea level and sea-level damages allow it. -/
theorem ok_world (hadm : p.Admissible) (hm : Spec.Milder p γ sc lot s) (hp : Spec.UnsharedPolicy md p)
    (htr : md.trade ≠ .globalcostpool)
    (hbal : md.trade = .emissiontrade → ∀ t ≤ p.tf, 0 < t → p.sumR (bal t) = 0)
    (hfloor : ∀ t ≤ p.tf, ∀ r ∈ p.regions, (if t > 0 then p.rel_mitigation_costs_min_level else 0) ≤
      (x σ bal).cost md (Spec.withWorld p γ sc lot s k) t r / (x σ bal).gross md (Spec.withWorld p γ sc lot s k) t r)
    (hT : ∀ t ≤ p.tf, (x σ bal).temp (Spec.withWorld p γ sc lot s k) t ≤ σ.G .temperature t)
    (hsea : ∀ t ≤ p.tf, 0 ≤ (x σ bal).th (Spec.withWorld p γ sc lot s k) t ∧ 0 ≤ (x σ bal).gs (Spec.withWorld p γ sc lot s k) t ∧ 0 ≤ (x σ bal).gi (Spec.withWorld p γ sc lot s k) t)
    (hforms : md.damage = .COACCH → ∀ t ≤ p.tf, ∀ r ∈ p.regions,
      FormOk ((x σ bal).temp (Spec.withWorld p γ sc lot s k) t - 0.6) p.noslr r ∧ FormOk ((x σ bal).slr (Spec.withWorld p γ sc lot s k) t) p.slr r)
    (hdam : md.damage = .COACCH → ∀ t ≤ p.tf, ∀ r ∈ p.regions,
      -1 / 2 ≤ s * (formVal ((x σ bal).slr (Spec.withWorld p γ sc lot s k) t) p.slr r - formVal ((x σ bal).slr (Spec.withWorld p γ sc lot s k) 0) p.slr r) ∧
      s * (formVal ((x σ bal).slr (Spec.withWorld p γ sc lot s k) t) p.slr r - formVal ((x σ bal).slr (Spec.withWorld p γ sc lot s k) 0) p.slr r) ≤ 7 / 10) :
    (x σ bal).Ok md (Spec.withWorld p γ sc lot s k) := by
  have e := h.eqs
  have emE := fun {t} (ht : t ≤ p.tf) {r} (hr : r ∈ p.regions) => em_eq (bal := bal) (γ := γ) (sc := sc) (lot := lot) (s := s) (k := k) h hex ht hr
  have gEE := fun {t} (ht : t ≤ p.tf) => gE_eq (bal := bal) (γ := γ) (sc := sc) (lot := lot) (s := s) (k := k) h hex ht
  have cumE := fun {t} (ht : t ≤ p.tf) => cum_eq (bal := bal) (γ := γ) (sc := sc) (lot := lot) (s := s) (k := k) h hex ht
  have l := (admissible (k := k) hadm hm).lot
  have learn_pos : ∀ t, 0 < (x σ bal).learn (Spec.withWorld p γ sc lot s k) t := fun t =>
    mul_pos (Real.rpow_pos_of_pos (soft_min_pos_one _) _) (one_div_pos.2 (Real.rpow_pos_of_pos l _))
  have a0 : ∀ t ≤ p.tf, ∀ r ∈ p.regions, 0 ≤ (x σ bal).a t r ∧ (x σ bal).a t r ≤ 5 / 2 := by
    intro t ht r hr
    simp only [x]
    split
    · norm_num
    · exact ⟨(h.abatement_bounds ht hr).1, (h.abatement_bounds ht hr).2⟩
  have price0 : ∀ t ≤ p.tf, ∀ r ∈ p.regions, 0 ≤ (x σ bal).price (Spec.withWorld p γ sc lot s k) t r := by
    intro t ht r hr
    have h1 := hm.gamma.1
    have h2 := (hm.level r hr).1
    have h3 := (learn_pos t).le
    have h4 := Real.rpow_nonneg (a0 t ht r hr).1 p.MAC_beta
    show 0 ≤ (x σ bal).learn (Spec.withWorld p γ sc lot s k) t * sc r * γ * (x σ bal).a t r ^ p.MAC_beta
    positivity
  have hadm' := admissible (k := k) hadm hm
  constructor
  case a_init => intro r hr; simp [x]
  case a_nonneg => exact fun t ht r hr => (a0 t ht r hr).1
  case a_le => exact fun t ht r hr => (a0 t ht r hr).2
  case exogenous => intro _; rfl
  case endogenous => intro h; have : p.use_carbon_intensity_for_baseline = true := h; rw [hex] at this; cases this
  case trade => exact htr
  case bal_sum =>
    intro hh t ht
    rcases Nat.eq_zero_or_pos t with rfl | h0
    · exact (sumR_congr fun r _ => by simp [x]).trans sumR_zero
    · rw [← hbal hh t ht h0]
      exact sumR_congr fun r _ => by simp only [x]; rw [if_neg (by omega)]
  case tr_init => intro hh; rw [hp.transfer] at hh; cases hh
  case tr_sum => intro hh; rw [hp.transfer] at hh; cases hh
  case tr_max => intro hh; rw [hp.transfer] at hh; cases hh
  case target => intro t ht T hT2 hy; exact (hT t ht).trans (e.emissions.temperature_target t ht T hT2 hy)
  case reversible => intro _; exact hp.reversible
  case budget =>
    intro t ht b hb hy
    have := e.emissions.budget t ht b hb hy
    rw [if_neg (not_lt.2 hp.reversible)] at this
    have e2 := cumE ht
    show (x σ bal).cum (Spec.withWorld p γ sc lot s k) t ≤ b
    linarith
  case cum_nonneg => intro t ht; exact (e.emissions.cumulative_nonneg t ht).trans (cumE ht).ge
  case global_inertia =>
    intro t ht i hi
    have := e.emissions.global_inertia t ht i hi
    rw [← gEE ht, ← gEE (t := t) (Nat.le_of_succ_le ht)] at this
    exact this
  case regional_inertia =>
    intro t ht r hr i hi
    have := e.emissions.regional_inertia t ht r hr i hi
    rw [← emE ht hr, ← emE (t := t) (Nat.le_of_succ_le ht) hr] at this
    exact this
  case global_min =>
    intro t ht l hl
    exact (e.emissions.global_min_level t ht l hl).trans (gEE ht).ge
  case regional_min =>
    intro t ht r hr l hl
    exact (e.emissions.regional_min_level t ht r hr l hl).trans (emE ht hr).ge
  case start => exact hp.start
  case non_increasing =>
    intro t ht r hr hy hn
    have := e.emissions.non_increasing (t + 1) ht r hr (by rw [cast_succ_sub_one]; exact hy) hn
    rw [cast_succ_sub_one] at this
    have e1 := emE ht hr
    have e2 := emE (t := t) (Nat.le_of_succ_le ht) hr
    show (x σ bal).em (Spec.withWorld p γ sc lot s k) (t + 1) r ≤ (x σ bal).em (Spec.withWorld p γ sc lot s k) t r
    rw [e1, e2]
    exact sub_nonpos.1 this
  case net_zero =>
    intro t ht hy hn hb
    exact (gEE ht).le.trans (e.emissions.net_zero t ht hy hn hb)
  case slr_nonneg => exact hsea
  case forms =>
    intro hd t ht r hr
    have d := e.damages
    rw [hd] at d
    exact ⟨(hforms hd t ht r hr).1, (d.noslr t ht r hr).2.1, (hforms hd t ht r hr).2, (hforms hd 0 (Nat.zero_le _) r hr).2⟩
  case damS_bounds => exact hdam
  case price_nonneg => exact price0
  case price_le =>
    intro t ht r hr
    show (x σ bal).learn (Spec.withWorld p γ sc lot s k) t * sc r * γ * (x σ bal).a t r ^ p.MAC_beta ≤ 2 * γ
    rcases Nat.eq_zero_or_pos t with rfl | h0
    · have : (x σ bal).a 0 r = 0 := by simp [x]
      rw [this, Real.zero_rpow hadm.beta_pos.ne', mul_zero]
      linarith [hm.gamma.1]
    have ea : (x σ bal).a t r = σ.R .relative_abatement t r := by simp [x]; omega
    have b := (h.price_bounds ht hr).2
    rw [(e.mitigation.carbonprice t ht r hr).2] at b
    have hΓ := hm.gamma
    rcases hΓ.1.eq_or_lt with h1 | h1
    · rw [← h1]; simp
    have b2 : σ.G .learning_factor t * p.MAC_scaling_factor r * σ.R .relative_abatement t r ^ p.MAC_beta ≤ 2 := by
      have hpos : 0 < p.MAC_gamma := h1.trans_le hΓ.2
      refine le_of_mul_le_mul_left ?_ hpos
      calc p.MAC_gamma * (σ.G .learning_factor t * p.MAC_scaling_factor r * σ.R .relative_abatement t r ^ p.MAC_beta)
          = macVal p σ t r := by unfold macVal; ring
        _ ≤ 2 * p.MAC_gamma := b
        _ = p.MAC_gamma * 2 := by ring
    have hl : (x σ bal).learn (Spec.withWorld p γ sc lot s k) t ≤ σ.G .learning_factor t := by
      have e1 : (x σ bal).lbd (Spec.withWorld p γ sc lot s k) t = σ.G .LBD_factor t := by
        rw [(e.mitigation.lbd t ht).2, ← cumE ht]; rfl
      have hb : 0 < σ.G .LBD_factor t := by
        rw [(e.mitigation.lbd t ht).2]; exact Real.rpow_pos_of_pos (soft_min_pos_one _) _
      rw [e.mitigation.learning t ht, Drivers.learn, e1, (e.mitigation.lot t ht).2.2]
      refine mul_le_mul_of_nonneg_left ?_ hb.le
      exact one_div_le_one_div_of_le (Real.rpow_pos_of_pos hadm.lot _)
        (Real.rpow_le_rpow hadm.lot.le (by show _ ≤ 1 + lot; linarith [hm.learning]) (Nat.cast_nonneg t))
    have hL := hm.level r hr
    have hlp := (learn_pos t).le
    have hpow := Real.rpow_nonneg (h.abatement_bounds ht hr).1 p.MAC_beta
    rw [ea]
    have b3 : (x σ bal).learn (Spec.withWorld p γ sc lot s k) t * sc r * σ.R .relative_abatement t r ^ p.MAC_beta ≤ 2 :=
      (mul_le_mul_of_nonneg_right (mul_le_mul hl hL.2 hL.1 (hlp.trans hl)) hpow).trans b2
    calc _ = (x σ bal).learn (Spec.withWorld p γ sc lot s k) t * sc r * σ.R .relative_abatement t r ^ p.MAC_beta * γ := by
          ring
      _ ≤ 2 * γ := mul_le_mul_of_nonneg_right b3 h1.le
  case rel_costs_min => exact hfloor
  case effort =>
    have ne1 : "noregime" ≠ "equal_mitigation_costs" := by decide
    have ne2 : "noregime" ≠ "equal_total_costs" := by decide
    have ne3 : "noregime" ≠ "per_cap_convergence" := by decide
    constructor
    · intro t ht r hr he; exact absurd (hp.regime.symm.trans he) ne1
    · intro t ht r hr he; exact absurd (hp.regime.symm.trans he) ne2
    · intro t ht r hr he; exact absurd (hp.regime.symm.trans he) ne3
  case effort_scope =>
    intro he
    exact absurd (hp.regime.symm.trans he) (by decide)

omit hex in
/-- Without trade, costs are not negative. -/
theorem floor_plain (hadm : p.Admissible) (hm : Spec.Milder p γ sc lot s) (hp : Spec.PlainPolicy md p) {t : ℕ}
    (ht : t ≤ p.tf) {r : String} (hr : r ∈ p.regions) :
    (if t > 0 then p.rel_mitigation_costs_min_level else 0) ≤
      (x σ bal).cost md (Spec.withWorld p γ sc lot s k) t r / (x σ bal).gross md (Spec.withWorld p γ sc lot s k) t r := by
  have hadm' := admissible (k := k) hadm hm
  have hg := (x σ bal).gross_pos md (Spec.withWorld p γ sc lot s k) hadm' ht hr
  have a0 : 0 ≤ (x σ bal).a t r := by
    simp only [x]
    split
    · norm_num
    · exact (h.abatement_bounds ht hr).1
  have h1 : 0 ≤ (x σ bal).cost md (Spec.withWorld p γ sc lot s k) t r := by
    have h2 := hp.baseline t ht r hr
    have h3 := (hm.level r hr).1
    have h4 := hm.gamma.1
    have h5 : 0 ≤ (x σ bal).learn (Spec.withWorld p γ sc lot s k) t :=
      (mul_pos (Real.rpow_pos_of_pos (soft_min_pos_one _) _) (one_div_pos.2 (Real.rpow_pos_of_pos hadm'.lot _))).le
    have h6 := Real.rpow_nonneg a0 (p.MAC_beta + 1)
    have h7 := hadm.beta_pos
    unfold Drivers.cost Drivers.balance
    rw [hp.trade]
    show 0 ≤ (x σ bal).learn (Spec.withWorld p γ sc lot s k) t * sc r * γ * (x σ bal).a t r ^ (p.MAC_beta + 1) /
      (p.MAC_beta + 1) * p.baseline_emissions t r + 0
    positivity
  have h2 : 0 ≤ (x σ bal).cost md (Spec.withWorld p γ sc lot s k) t r /
      (x σ bal).gross md (Spec.withWorld p γ sc lot s k) t r := div_nonneg h1 hg.le
  have := hp.cost_floor
  split <;> linarith

/-- With the climate unchanged only the costs have to be looked at. -/
theorem ok_costs (hadm : p.Admissible) (hm : Spec.Milder p γ sc lot s) (hp : Spec.UnsharedPolicy md p)
    (htr : md.trade ≠ .globalcostpool)
    (hbal : md.trade = .emissiontrade → ∀ t ≤ p.tf, 0 < t → p.sumR (bal t) = 0)
    (hfloor : ∀ t ≤ p.tf, ∀ r ∈ p.regions, (if t > 0 then p.rel_mitigation_costs_min_level else 0) ≤
      (x σ bal).cost md (Spec.withCosts p γ sc lot s) t r / (x σ bal).gross md (Spec.withCosts p γ sc lot s) t r) :
    (x σ bal).Ok md (Spec.withCosts p γ sc lot s) := by
  have e := h.eqs
  have tempE := fun {t} (ht : t ≤ p.tf) => temp_eq (bal := bal) (γ := γ) (sc := sc) (lot := lot) (s := s) h hex ht
  have seaE := fun {t} (ht : t ≤ p.tf) => sea_eq (bal := bal) (γ := γ) (sc := sc) (lot := lot) (s := s) h hex ht
  have slrE := fun {t} (ht : t ≤ p.tf) => slr_eq (bal := bal) (γ := γ) (sc := sc) (lot := lot) (s := s) h hex ht
  refine ok_world (k := p.TCRE) h hex hadm hm hp htr hbal hfloor (fun t ht => (tempE ht).le) ?_ ?_ ?_
  · intro t ht
    obtain ⟨i1, i2, i3⟩ := seaE ht
    have := h.slr_nonneg ht
    refine ⟨?_, ?_, ?_⟩
    · show 0 ≤ (x σ bal).th (Spec.withCosts p γ sc lot s) t
      rw [i1]; exact this.1
    · show 0 ≤ (x σ bal).gs (Spec.withCosts p γ sc lot s) t
      rw [i2]; exact this.2.1
    · show 0 ≤ (x σ bal).gi (Spec.withCosts p γ sc lot s) t
      rw [i3]; exact this.2.2.1
  · intro hd t ht r hr
    have d := e.damages
    rw [hd] at d
    show FormOk ((x σ bal).temp (Spec.withCosts p γ sc lot s) t - 0.6) p.noslr r ∧
      FormOk ((x σ bal).slr (Spec.withCosts p γ sc lot s) t) p.slr r
    rw [tempE ht, slrE ht]
    exact ⟨(d.noslr t ht r hr).1, (d.slr t ht r hr).1⟩
  · intro hd t ht r hr
    have d := e.damages
    rw [hd] at d
    have b := h.slr_damage_bounds hd ht hr
    rw [(d.slr t ht r hr).2.2] at b
    show -1 / 2 ≤ s * (formVal ((x σ bal).slr (Spec.withCosts p γ sc lot s) t) p.slr r - formVal ((x σ bal).slr (Spec.withCosts p γ sc lot s) 0) p.slr r) ∧
      s * (formVal ((x σ bal).slr (Spec.withCosts p γ sc lot s) t) p.slr r - formVal ((x σ bal).slr (Spec.withCosts p γ sc lot s) 0) p.slr r) ≤ 7 / 10
    rw [slrE ht, slrE (Nat.zero_le _)]
    set D := formVal (σ.G .total_SLR t) p.slr r - formVal (σ.G .total_SLR 0) p.slr r
    have h1 := hm.damage
    rcases le_total 0 D with hD | hD
    · have := mul_le_mul_of_nonneg_right h1.2 hD
      have := mul_nonneg h1.1 hD
      constructor <;> linarith [b.1, b.2]
    · have := mul_le_mul_of_nonpos_right h1.2 hD
      have := mul_nonpos_of_nonneg_of_nonpos h1.1 hD
      constructor <;> linarith [b.1, b.2]

theorem ok (hadm : p.Admissible) (hm : Spec.Milder p γ sc lot s) (hp : Spec.PlainPolicy md p) :
    (x σ bal).Ok md (Spec.withCosts p γ sc lot s) :=
  ok_costs h hex hadm hm hp.toUnsharedPolicy (by rw [hp.trade]; decide)
    (fun hh => by rw [hp.trade] at hh; cases hh)
    (fun t ht r hr => floor_plain (k := p.TCRE) h hadm hm hp ht hr)
end
end Milder

/-! ## The theorems -/

/-- **C68.** The same abatement in the two worlds: emissions, temperature and sea level are the same; carbon prices,
abatement costs and damages are not larger where abatement is cheaper and damages milder; and no region has a smaller
product, capital stock or consumption, in any model year. -/
theorem C68_same_policy (hadm : p.Admissible) (hm : Spec.Milder p γ sc lot s) (hp : Spec.PlainPolicy md p)
    (hex : p.use_carbon_intensity_for_baseline = false) (hsr : p.sr ≤ 1) (h : Solution md p σ)
    (h' : Solution md (Spec.withCosts p γ sc lot s) τ) (ha : Spec.SamePolicy p σ τ) (ho : Spec.Moderate p σ) {t : ℕ}
    (ht : t ≤ p.tf) :
    (τ.G .temperature t = σ.G .temperature t ∧ τ.G .total_SLR t = σ.G .total_SLR t ∧
      σ.G .yearly_welfare t ≤ τ.G .yearly_welfare t) ∧
    ∀ r ∈ p.regions, τ.R .regional_emissions t r = σ.R .regional_emissions t r ∧
      τ.R .carbonprice t r ≤ σ.R .carbonprice t r ∧ τ.R .mitigation_costs t r ≤ σ.R .mitigation_costs t r ∧
      τ.R .damage_costs t r ≤ σ.R .damage_costs t r ∧ σ.R .capital_stock t r ≤ τ.R .capital_stock t r ∧
      σ.R .GDP_gross t r ≤ τ.R .GDP_gross t r ∧ σ.R .GDP_net t r ≤ τ.R .GDP_net t r ∧
      σ.R .consumption t r ≤ τ.R .consumption t r := by
  have hc : ∀ t ≤ p.tf, ∀ r ∈ p.regions, τ.R .mitigation_costs t r ≤ σ.R .mitigation_costs t r := fun t ht r hr =>
    (Milder.costs h h' ha hex hadm hm hp.trade hp.baseline ht hr).2
  have hd : ∀ t ≤ p.tf, ∀ r ∈ p.regions, τ.R .damage_costs t r ≤ σ.R .damage_costs t r := fun t ht r hr =>
    Milder.damages_le h h' ha hex hm ho ht hr
  have hf := hp.transfer
  exact ⟨⟨Milder.temperature h h' ha hex ht, Milder.seaLevel h h' ha hex ht,
      Milder.welfare hadm hm h h' hf hc hd ho hsr ht⟩,
    fun r hr => ⟨(Milder.emissions h h' ha hex ht).1 r hr, Milder.prices h h' ha hex hadm hm ht hr, hc t ht r hr,
      hd t ht r hr, Milder.capital hadm hm h h' hf hc hd ho hr ht, Milder.gross hadm hm h h' hf hc hd ho ht hr,
      Milder.net hadm hm h h' hf hc hd ho ht hr, Milder.consumption hadm hm h h' hf hc hd ho hsr ht hr⟩⟩

/-- **C68.** Every policy that is possible is also possible where abatement is cheaper and damages are milder. -/
theorem C68_policy_possible (hadm : p.Admissible) (hm : Spec.Milder p γ sc lot s) (hp : Spec.PlainPolicy md p)
    (hex : p.use_carbon_intensity_for_baseline = false) (h : Solution md p σ) :
    ∃ τ, Solution md (Spec.withCosts p γ sc lot s) τ ∧ Spec.SamePolicy p σ τ :=
  ⟨_, Drivers.build_solution (Milder.admissible hadm hm) (Milder.ok (bal := fun _ _ => 0) h hex hadm hm hp), fun t h0 ht r hr =>
    if_neg (Nat.pos_iff_ne_zero.1 h0)⟩

/-- **C68.** So with the objective "utility" the optimum is not worse where abatement is cheaper and damages are
milder. -/
theorem C68_optimum (hadm : p.Admissible) (hm : Spec.Milder p γ sc lot s) (hp : Spec.PlainPolicy md p)
    (hex : p.use_carbon_intensity_for_baseline = false) (hsr : p.sr ≤ 1) (hob : md.objective = .utility)
    (h : Optimal md p σ) (h' : Optimal md (Spec.withCosts p γ sc lot s) τ) (ho : Spec.Moderate p σ) :
    σ.G .NPV p.tf ≤ τ.G .NPV p.tf := by
  obtain ⟨ρ, hρ, ha⟩ := C68_policy_possible hadm hm hp hex h.1
  have h1 := Milder.objective hadm hm h.1 hρ hp.transfer
    (fun t ht r hr => (Milder.costs h.1 hρ ha hex hadm hm hp.trade hp.baseline ht hr).2)
    (fun t ht r hr => Milder.damages_le h.1 hρ ha hex hm ho ht hr) ho hsr hob
  have h2 := h'.best hρ
  unfold Spec.objectiveValue at h1 h2
  rw [hob] at h1 h2
  exact h1.trans h2

/-! ## Witnesses -/

namespace Ex
variable (w : WelfareModule) (o : ObjectiveModule)

/-- The example with abatement in the second and third step, damages and a temperature target. -/
noncomputable abbrev σM : Env := (x0 fun _ => 0).env (md0 .COACCH w o) (ex "noregime" 0 none)
theorem solM : Solution (md0 .COACCH w o) (ex "noregime" 0 none) (σM w o) := solution0 .COACCH w o le_rfl one_pos

theorem plainM : Spec.PlainPolicy (md0 .COACCH w o) (ex "noregime" 0 none) where
  trade := rfl
  transfer := rfl
  regime := rfl
  cost_floor := le_rfl
  reversible := le_rfl
  start := by norm_num [ex]
  baseline := by simp [ex]

/-- Abatement at four fifths of the cost, learning three times as fast, half the damages. -/
theorem milderM : Spec.Milder (ex "noregime" 0 none) (8 / 100) (fun _ => 1) (3 / 100) (1 / 2) where
  gamma := by norm_num [ex]
  level := by simp [ex]
  learning := by norm_num [ex]
  damage := by norm_num [ex]

theorem moderateM : Spec.Moderate (ex "noregime" 0 none) (σM w o) := by
  have hy : ((x0 fun _ => 0).a = fun t _ => aPath t) ∧ (x0 fun _ => 0).base = none := ⟨rfl, rfl⟩
  have h := solM w o
  have hd : ∀ t ≤ 3, ∀ r ∈ ["A", "B"], 0 ≤ (σM w o).R .damage_costs t r ∧ (σM w o).R .damage_costs t r ≤ 3 / 4 := by
    intro t ht r hr
    refine ⟨dam_nonneg (regime := "noregime") (conv := none) _ hy (md0 .COACCH w o) t ht r hr, ?_⟩
    have h1 : (σM w o).R .damage_costs t r = _ := C40_additive h rfl (t := t) ht (r := r) hr
    have h2 := (h.slr_damage_bounds rfl (t := t) ht (r := r) hr).2
    have hT := temp_range (regime := "noregime") (al := 0) (conv := none) _ hy t ht
    have h3 : (σM w o).R .damage_costs_non_slr t r ≤ 5 / 100 := by
      have e : (σM w o).R .damage_costs_non_slr t r = 1 * (formVal ((x0 fun _ => 0).temp (ex "noregime" 0 none) t - 0.6)
        (ex "noregime" 0 none).noslr r - formVal (1 - 0.6) (ex "noregime" 0 none).noslr r) := rfl
      rw [e]
      simp only [List.mem_cons, List.not_mem_nil, or_false] at hr
      rcases hr with rfl | rfl
      · rw [formN_A, formN_A]; linarith [hT.2]
      · rw [formN_B, formN_B]; nlinarith [hT.1, hT.2]
    rw [h1]; linarith
  have hc : ∀ t ≤ 3, ∀ r, (σM w o).R .mitigation_costs t r ≤ 1 / 2 := by
    intro t ht r
    have e : (σM w o).R .mitigation_costs t r = (x0 fun _ => 0).area (ex "noregime" 0 none) t r + 0 := rfl
    rw [e, area_val _ hy]
    obtain ⟨l0, l1⟩ := learn_range (regime := "noregime") (al := 0) (conv := none) _ hy t ht
    have ha : 0 ≤ aPath t ∧ aPath t ≤ 1 := by unfold aPath; split <;> [norm_num; (split <;> norm_num)]
    have hp := Real.rpow_le_one ha.1 ha.2 (by norm_num : (0 : ℝ) ≤ 4)
    have hp0 := Real.rpow_nonneg ha.1 4
    nlinarith
  constructor
  · intro t ht r hr
    have := hd t ht r hr
    exact ⟨this.1, by linarith⟩
  · have key : ∀ t ≤ 3, ∀ r ∈ ["A", "B"], 16 ≤ (σM w o).R .capital_stock t r := by
      intro t
      induction t with
      | zero =>
        intro _ r hr
        have : (σM w o).R .capital_stock 0 r = 3 * 10 := h.eqs.economy.capital_init r hr
        rw [this]; norm_num
      | succ t ih =>
        intro ht r hr
        have hadm : (ex "noregime" 0 none).Admissible := admissible le_rfl one_pos
        have e : (2 - (1 - (ex "noregime" 0 none).dk) ^ (ex "noregime" 0 none).dt) * (σM w o).R .capital_stock (t + 1) r =
            (σM w o).R .capital_stock t r + 40 * (1 / 5 * (σM w o).R .GDP_net (t + 1) r) :=
          h.capital_eq hadm (t := t) ht hr
        have n := h.eqs.economy.net (t + 1) ht r hr
        have g : (σM w o).R .GDP_gross (t + 1) r = 10 :=
          gross_val (regime := "noregime") (conv := none) (x0 fun _ => 0) (md0 .COACCH w o) (t + 1) r
        have n' : (σM w o).R .GDP_net (t + 1) r =
            10 * (1 - (σM w o).R .damage_costs (t + 1) r) - (σM w o).R .mitigation_costs (t + 1) r := by
          rw [n, g]
          show 10 * (1 - if false = true then _ else _) - _ - 0 = _
          simp
        have i := ih (by omega) r hr
        have c := hc (t + 1) ht r
        have d := (hd (t + 1) ht r hr).2
        have p1 := dk_pow_le hadm
        have p2 := dk_pow_pos hadm
        rw [n'] at e
        set A := 2 - (1 - (ex "noregime" 0 none).dk) ^ (ex "noregime" 0 none).dt with hA
        have a1 : 1 ≤ A := by rw [hA]; linarith
        have a2 : A ≤ 2 := by rw [hA]; linarith
        by_contra hlt
        push Not at hlt
        have : A * (σM w o).R .capital_stock (t + 1) r < 32 := by
          rcases le_total 0 ((σM w o).R .capital_stock (t + 1) r) with h0 | h0 <;> nlinarith
        linarith
    intro t ht r hr
    have h1 := key t (Nat.le_of_lt ht) r hr
    have h2 := hc (t + 1) ht r
    show 40 * (1 / 5 * _) < _
    linarith

/-- There is something to compare: the policy has abatement and there are damages. -/
example := C68_policy_possible (admissible le_rfl one_pos) milderM (plainM w o) rfl (solM w o)
example : ∃ τ, Solution (md0 .COACCH w o) (Spec.withCosts (ex "noregime" 0 none) (8 / 100) (fun _ => 1) (3 / 100) (1 / 2)) τ ∧
    (σM w o).R .consumption 2 "A" ≤ τ.R .consumption 2 "A" ∧ τ.R .relative_abatement 2 "A" = 1 := by
  obtain ⟨τ, h, ha⟩ := C68_policy_possible (admissible le_rfl one_pos) milderM (plainM w o) rfl (solM w o)
  refine ⟨τ, h, ((C68_same_policy (admissible le_rfl one_pos) milderM (plainM w o) rfl (by norm_num [ex]) (solM w o) h ha
    (moderateM w o) (t := 2) (by norm_num [ex])).2 "A" (by simp [ex])).2.2.2.2.2.2.2, ?_⟩
  rw [ha 2 (by norm_num) (by norm_num [ex]) "A" (by simp [ex])]
  show aPath 2 = 1
  norm_num [aPath]

/-- Two optima: in the world without damages nothing is abated, and there is also an optimum of the milder world. -/
example : ∃ σ τ, Optimal (md0 .nodamage w .utility) free σ ∧
    Optimal (md0 .nodamage w .utility) (Spec.withCosts free (8 / 100) (fun _ => 1) (3 / 100) (1 / 2)) τ ∧
    σ.G .NPV 3 ≤ τ.G .NPV 3 := by
  have hm : Spec.Milder free (8 / 100) (fun _ => 1) (3 / 100) (1 / 2) := by
    constructor <;> simp [free, ex] <;> norm_num
  have hp : Spec.PlainPolicy (md0 .nodamage w .utility) free :=
    ⟨⟨rfl, rfl, le_rfl, le_rfl, by norm_num [free, ex], by simp [free, ex]⟩, rfl⟩
  have h := free_optimal w
  obtain ⟨ρ, hρ, -⟩ := C68_policy_possible free_admissible hm hp rfl h.1
  obtain ⟨τ, hτ⟩ := C65_optimum_exists_exogenous (Milder.admissible free_admissible hm) (fun h => by cases h) rfl ⟨ρ, hρ⟩
  refine ⟨_, τ, h, hτ, C68_optimum free_admissible hm hp rfl (by norm_num [free, ex]) rfl h hτ ⟨?_, ?_⟩⟩
  · intro t ht r hr
    have : (σZero w .utility).R .damage_costs t r = 0 := h.1.eqs.damages t ht r hr
    rw [this]; norm_num
  · intro t ht r hr
    rw [free_cost_zero]
    have e : (40 : ℝ) * (1 / 5 * 0) = 0 := by norm_num
    refine e.trans_lt (C37_positive h.1 free_admissible.econData hr (fun t ht => ?_) (Nat.le_of_lt ht))
    have h1 := (free_cons h.1 ht hr).1
    have h2 := h.1.eqs.economy.consumption t ht r hr
    rw [free_cost_zero] at h1
    have h3 : (1 - 1 / 5) * (σZero w .utility).R .GDP_net t r = 4 / 5 * (10 - 0) := h2.symm.trans h1
    linarith
end Ex
end Mimosa
