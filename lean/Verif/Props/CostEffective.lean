import Verif.Props.Binding

/-!
# C77: with emission trade the optimum abates where it is cheapest

With emission trade the costs of abatement can be shared in any way (down to the configured floor), so where the
abatement takes place is only a question of efficiency.  An optimum therefore reaches its path of world emissions at
the lowest total cost, and the marginal cost of abatement - the carbon price - is the same in all regions in which
neither the bounds on abatement nor the regional limits on emissions stand in the way.  The same holds for the
objective "global costs" without damages, with or without trade.
-/

set_option linter.unusedSimpArgs false

namespace Mimosa
variable {md : Modules} {p : Params} {σ τ : Env}

/-- The settings in which only the total costs of abatement matter: emission trade with the objective "utility", or the
objective "global costs" without damages.  No financial transfers or effort-sharing regime, no requirement of strictly
positive costs, damages entirely reversible (needed for a carbon budget), start before 2100, and exogenous baseline
emissions that are not negative. -/
structure Spec.SharedEffort (md : Modules) (p : Params) : Prop where
  objective : (md.objective = .utility ∧ md.trade = .emissiontrade) ∨
    (md.objective = .globalcosts ∧ md.damage = .nodamage)
  transfer : md.transfer = .notransfer
  regime : p.effort_sharing_regime = "noregime"
  cost_floor : p.rel_mitigation_costs_min_level ≤ 0
  reversible : 1 ≤ p.perc_reversible_damages
  start : p.beginyear ≤ 2100
  exogenous : p.use_carbon_intensity_for_baseline = false
  baseline : ∀ t ≤ p.tf, ∀ r ∈ p.regions, 0 ≤ p.baseline_emissions t r

/-- Damages do not exceed the product, and the savings for one step's abatement costs do not use up the capital
stock. -/
structure Spec.Affordable (p : Params) (σ : Env) : Prop where
  damages : ∀ t ≤ p.tf, ∀ r ∈ p.regions, σ.R .damage_costs t r ≤ 1
  costs : Spec.CostsBelowCapital p σ

/-- The total costs of abating the shares `a` of the baseline emissions in year `t`, at the level of experience reached
in `σ`. -/
noncomputable def Spec.totalCost (p : Params) (σ : Env) (t : ℕ) (a : String → ℝ) : ℝ :=
  (p.regions.map fun r => p.baseline_emissions t r *
    ∫ x in (0 : ℝ)..a r, Mitigation.MAC x (σ.G .learning_factor t) (p.MAC_scaling_factor r) p.MAC_gamma p.MAC_beta).sum

/-- Abatement `a` is another way to reach the world emissions of `σ` that respects the bounds on abatement and carbon
prices and all regional limits. -/
structure Spec.Reallocation (p : Params) (σ : Env) (a : ℕ → String → ℝ) : Prop where
  world : ∀ t ≤ p.tf, 0 < t →
    (p.regions.map fun r => (1 - a t r) * p.baseline_emissions t r).sum = σ.G .global_emissions t
  range : ∀ t ≤ p.tf, 0 < t → ∀ r ∈ p.regions, 0 ≤ a t r ∧ a t r ≤ 5 / 2
  price : ∀ t ≤ p.tf, 0 < t → ∀ r ∈ p.regions,
    Mitigation.MAC (a t r) (σ.G .learning_factor t) (p.MAC_scaling_factor r) p.MAC_gamma p.MAC_beta ≤ 2 * p.MAC_gamma
  min_level : ∀ l, p.regional_min_level = some l → ∀ t ≤ p.tf, 0 < t → ∀ r ∈ p.regions,
    l ≤ (1 - a t r) * p.baseline_emissions t r
  inertia_first : ∀ i, p.inertia_regional = some i → 0 < p.tf → ∀ r ∈ p.regions,
    p.dt * i * p.baseline_emissions 0 r ≤ (1 - a 1 r) * p.baseline_emissions 1 r - p.baseline_emissions 0 r
  inertia : ∀ i, p.inertia_regional = some i → ∀ t < p.tf, 0 < t → ∀ r ∈ p.regions,
    p.dt * i * p.baseline_emissions 0 r ≤
      (1 - a (t + 1) r) * p.baseline_emissions (t + 1) r - (1 - a t r) * p.baseline_emissions t r
  non_increasing : p.non_increasing_emissions_after_2100 = true → ∀ t < p.tf, 2100 < p.year t → ∀ r ∈ p.regions,
    (1 - a (t + 1) r) * p.baseline_emissions (t + 1) r ≤ (1 - a t r) * p.baseline_emissions t r

namespace Shift

/-- The drivers of the reallocated run. -/
noncomputable def x (a bal : ℕ → String → ℝ) : Drivers :=
  ⟨fun t r => if t = 0 then 0 else a t r, fun t r => if t = 0 then 0 else bal t r, fun _ _ => 0, fun _ => 0, none⟩

section
variable {a bal : ℕ → String → ℝ} (h : Solution md p σ) (hr : Spec.Reallocation p σ a)
include h hr

omit h hr in
theorem em_pos {t : ℕ} (h0 : 0 < t) (r : String) :
    (x a bal).em p t r = (1 - a t r) * p.baseline_emissions t r := by
  show (1 - (if t = 0 then 0 else _)) * p.baseline_emissions t r = _
  rw [if_neg (by omega)]

omit h hr in
theorem em_zero (r : String) : (x a bal).em p 0 r = p.baseline_emissions 0 r := by
  simp [Drivers.em, Drivers.eb, x]

theorem gE_eq {t : ℕ} (ht : t ≤ p.tf) : (x a bal).gE p t = σ.G .global_emissions t := by
  rcases Nat.eq_zero_or_pos t with rfl | h0
  · rw [C23_global_is_sum h ht]
    exact sumR_congr fun r hr' => (em_zero r).trans ((C32_emissions h).1 r hr').symm
  · rw [← hr.world t ht h0]
    exact sumR_congr fun r _ => em_pos h0 r

theorem cum_eq {t : ℕ} (ht : t ≤ p.tf) : (x a bal).cum p t = σ.G .cumulative_emissions t := by
  induction t with
  | zero => exact h.eqs.emissions.cumulative_init.symm
  | succ t ih =>
    rw [h.eqs.emissions.cumulative t ht, Drivers.cum, ih (by omega), gE_eq h hr ht,
      gE_eq h hr (t := t) (Nat.le_of_succ_le ht)]

theorem temp_eq {t : ℕ} (ht : t ≤ p.tf) : (x a bal).temp p t = σ.G .temperature t := by
  rw [h.eqs.emissions.temperature t ht, Drivers.temp, cum_eq h hr ht]

theorem sea_eq {t : ℕ} (ht : t ≤ p.tf) : (x a bal).th p t = σ.G .slr_thermal t ∧
    (x a bal).gs p t = σ.G .slr_cumgsic t ∧ (x a bal).gi p t = σ.G .slr_cumgis t := by
  have e := h.eqs.slr
  induction t with
  | zero => exact ⟨e.thermal_init.symm, e.gsic_init.symm, e.gis_init.symm⟩
  | succ t ih =>
    obtain ⟨i1, i2, i3⟩ := ih (by omega)
    rw [e.thermal t ht, e.gsic t ht, e.gis t ht, Drivers.th, Drivers.gs, Drivers.gi, i1, i2, i3,
      temp_eq h hr (t := t) (Nat.le_of_succ_le ht)]
    exact ⟨rfl, rfl, rfl⟩

theorem slr_eq {t : ℕ} (ht : t ≤ p.tf) : (x a bal).slr p t = σ.G .total_SLR t := by
  obtain ⟨i1, i2, i3⟩ := sea_eq h hr (bal := bal) ht
  rw [h.eqs.slr.total t ht, Drivers.slr, i1, i2, i3]

theorem dam_eq {t : ℕ} (ht : t ≤ p.tf) {r : String} (hr' : r ∈ p.regions) :
    (x a bal).dam md p t r = σ.R .damage_costs t r := by
  have d := h.eqs.damages
  unfold Drivers.dam
  cases hd : md.damage with
  | nodamage => rw [hd] at d; exact (d t ht r hr').symm
  | COACCH =>
    rw [hd] at d
    rw [d.total t ht r hr', (d.noslr t ht r hr').2.2, (d.slr t ht r hr').2.2]
    simp only [Drivers.damN, Drivers.damS, temp_eq h hr ht, slr_eq h hr ht, slr_eq h hr (Nat.zero_le _)]

theorem learn_eq {t : ℕ} (ht : t ≤ p.tf) : (x a bal).learn p t = σ.G .learning_factor t := by
  have e := h.eqs.mitigation
  rw [e.learning t ht, Drivers.learn, Drivers.lbd, cum_eq h hr ht, (e.lbd t ht).2, (e.lot t ht).2.2]
  rfl

theorem area_eq (hb : 0 < p.MAC_beta) {t : ℕ} (ht : t ≤ p.tf) (r : String) :
    (x a bal).area p t r = if t = 0 then 0 else p.baseline_emissions t r *
      ∫ x in (0 : ℝ)..a t r, Mitigation.MAC x (σ.G .learning_factor t) (p.MAC_scaling_factor r) p.MAC_gamma p.MAC_beta := by
  unfold Drivers.area
  rw [learn_eq h hr ht, ← C30_area_under_curve _ _ _ (by linarith), Mitigation.AC_real]
  show _ * (if t = 0 then 0 else _) ^ _ / _ * p.baseline_emissions t r = _
  split
  · rw [Real.zero_rpow (by linarith)]; simp
  · ring

/-- The reallocated run meets all constraints if the costs respect the floor and payments cancel. -/
theorem ok (hadm : p.Admissible) (hmac : Spec.MacData p) (hs : Spec.SharedEffort md p)
    (htr : md.trade ≠ .globalcostpool)
    (hbal : md.trade = .emissiontrade → ∀ t ≤ p.tf, 0 < t → p.sumR (bal t) = 0)
    (hfloor : ∀ t ≤ p.tf, ∀ r ∈ p.regions, (if t > 0 then p.rel_mitigation_costs_min_level else 0) ≤
      (x a bal).cost md p t r / (x a bal).gross md p t r) : (x a bal).Ok md p := by
  have e := h.eqs
  have hL := fun {t} (ht : t ≤ p.tf) => (C31_positive h hmac.lot ht).2.2
  have a0 : ∀ t ≤ p.tf, ∀ r ∈ p.regions, 0 ≤ (x a bal).a t r ∧ (x a bal).a t r ≤ 5 / 2 := by
    intro t ht r hr'
    show 0 ≤ (if t = 0 then 0 else _) ∧ (if t = 0 then 0 else _) ≤ _
    split
    · norm_num
    · exact hr.range t ht (by omega) r hr'
  constructor
  case a_init => intro r hr; simp [x]
  case a_nonneg => exact fun t ht r hr => (a0 t ht r hr).1
  case a_le => exact fun t ht r hr => (a0 t ht r hr).2
  case exogenous => intro _; rfl
  case endogenous => intro h; rw [hs.exogenous] at h; cases h
  case trade => exact htr
  case bal_sum =>
    intro hh t ht
    rcases Nat.eq_zero_or_pos t with rfl | h0
    · exact (sumR_congr fun r _ => by simp [x]).trans sumR_zero
    · rw [← hbal hh t ht h0]
      exact sumR_congr fun r _ => by simp only [x]; rw [if_neg (by omega)]
  case tr_init => intro hh; rw [hs.transfer] at hh; cases hh
  case tr_sum => intro hh; rw [hs.transfer] at hh; cases hh
  case tr_max => intro hh; rw [hs.transfer] at hh; cases hh
  case target => intro t ht T hT hy; rw [temp_eq h hr ht]; exact e.emissions.temperature_target t ht T hT hy
  case reversible => intro _; exact hs.reversible
  case budget =>
    intro t ht b hb hy
    have := e.emissions.budget t ht b hb hy
    rw [if_neg (not_lt.2 hs.reversible)] at this
    rw [cum_eq h hr ht]; linarith
  case cum_nonneg => intro t ht; rw [cum_eq h hr ht]; exact e.emissions.cumulative_nonneg t ht
  case global_inertia =>
    intro t ht i hi
    rw [gE_eq h hr ht, gE_eq h hr (t := t) (Nat.le_of_succ_le ht)]
    exact e.emissions.global_inertia t ht i hi
  case regional_inertia =>
    intro t ht r hr' i hi
    rw [em_pos (Nat.succ_pos t)]
    rcases Nat.eq_zero_or_pos t with rfl | h0
    · rw [em_zero]; exact hr.inertia_first i hi ht r hr'
    · rw [em_pos h0]; exact hr.inertia i hi t ht h0 r hr'
  case global_min => intro t ht l hl; rw [gE_eq h hr ht]; exact e.emissions.global_min_level t ht l hl
  case regional_min =>
    intro t ht r hr' l hl
    rcases Nat.eq_zero_or_pos t with rfl | h0
    · rw [em_zero, ← (C32_emissions h).1 r hr']; exact e.emissions.regional_min_level 0 ht r hr' l hl
    · rw [em_pos h0]; exact hr.min_level l hl t ht h0 r hr'
  case start => exact hs.start
  case non_increasing =>
    intro t ht r hr' hy hn
    have h0 : 0 < t := by
      rcases Nat.eq_zero_or_pos t with rfl | h0
      · have := hs.start
        simp [Params.year] at hy; linarith
      · exact h0
    rw [em_pos (Nat.succ_pos t), em_pos h0]
    exact hr.non_increasing hn t ht hy r hr'
  case net_zero => intro t ht hy hn hb; rw [gE_eq h hr ht]; exact e.emissions.net_zero t ht hy hn hb
  case slr_nonneg =>
    intro t ht
    obtain ⟨i1, i2, i3⟩ := sea_eq h hr (bal := bal) ht
    have := h.slr_nonneg ht
    rw [i1, i2, i3]
    exact ⟨this.1, this.2.1, this.2.2.1⟩
  case forms =>
    intro hd t ht r hr'
    have d := e.damages
    rw [hd] at d
    rw [temp_eq h hr ht, slr_eq h hr ht, slr_eq h hr (Nat.zero_le _)]
    exact ⟨(d.noslr t ht r hr').1, (d.noslr t ht r hr').2.1, (d.slr t ht r hr').1, (d.slr 0 (Nat.zero_le _) r hr').1⟩
  case damS_bounds =>
    intro hd t ht r hr'
    have d := e.damages
    rw [hd] at d
    have b := h.slr_damage_bounds hd ht hr'
    rw [(d.slr t ht r hr').2.2] at b
    unfold Drivers.damS
    rw [slr_eq h hr ht, slr_eq h hr (Nat.zero_le _)]
    exact b
  case price_nonneg =>
    intro t ht r hr'
    have := (hmac.scaling_pos r hr').le
    have := hmac.gamma_pos.le
    have := (hL ht).le
    have := Real.rpow_nonneg (a0 t ht r hr').1 p.MAC_beta
    unfold Drivers.price
    rw [learn_eq h hr ht]
    positivity
  case price_le =>
    intro t ht r hr'
    unfold Drivers.price
    rw [learn_eq h hr ht]
    rcases Nat.eq_zero_or_pos t with rfl | h0
    · have : (x a bal).a 0 r = 0 := by simp [x]
      rw [this, Real.zero_rpow hadm.beta_pos.ne', mul_zero]
      linarith [hmac.gamma_pos]
    · have ea : (x a bal).a t r = a t r := by simp [x]; omega
      have := hr.price t ht h0 r hr'
      rw [Mitigation.MAC_real] at this
      rw [ea]; exact this
  case rel_costs_min => exact hfloor
  case effort =>
    have ne1 : "noregime" ≠ "equal_mitigation_costs" := by decide
    have ne2 : "noregime" ≠ "equal_total_costs" := by decide
    have ne3 : "noregime" ≠ "per_cap_convergence" := by decide
    constructor
    · intro t ht r hr he; exact absurd (hs.regime.symm.trans he) ne1
    · intro t ht r hr he; exact absurd (hs.regime.symm.trans he) ne2
    · intro t ht r hr he; exact absurd (hs.regime.symm.trans he) ne3
  case effort_scope =>
    intro he
    exact absurd (hs.regime.symm.trans he) (by decide)
end

/-! ### Sharing lower costs so that nobody pays more -/

/-- The factor by which the positive contributions are reduced. -/
noncomputable def share (p : Params) (σ : Env) (A : ℝ) (t : ℕ) : ℝ :=
  (A - p.sumR fun r => min (σ.R .mitigation_costs t r) 0) / p.sumR fun r => max (σ.R .mitigation_costs t r) 0

/-- What each region pays when the total is `A`. -/
noncomputable def pays (p : Params) (σ : Env) (A : ℝ) (t : ℕ) (r : String) : ℝ :=
  min (σ.R .mitigation_costs t r) 0 + share p σ A t * max (σ.R .mitigation_costs t r) 0

section
variable {A : ℝ} {t : ℕ} (h0 : 0 ≤ A) (h1 : A ≤ p.sumR fun r => σ.R .mitigation_costs t r)
include h0 h1

omit h0 h1 in
theorem split_sum : (p.sumR fun r => σ.R .mitigation_costs t r) =
    (p.sumR fun r => min (σ.R .mitigation_costs t r) 0) + p.sumR fun r => max (σ.R .mitigation_costs t r) 0 := by
  rw [← sumR_add]
  exact sumR_congr fun r _ => by rw [min_add_max, add_zero]

omit h0 h1 in
theorem parts : (p.sumR fun r => min (σ.R .mitigation_costs t r) 0) ≤ 0 ∧
    0 ≤ p.sumR fun r => max (σ.R .mitigation_costs t r) 0 := by
  constructor
  · exact (sumR_le (g := fun _ => 0) fun r _ => min_le_right _ _).trans_eq sumR_zero
  · exact sumR_zero.symm.le.trans (sumR_le (f := fun _ => 0) fun r _ => le_max_right _ _)

theorem share_range : 0 ≤ share p σ A t ∧ share p σ A t ≤ 1 := by
  obtain ⟨n, q⟩ := parts (p := p) (σ := σ) (t := t)
  have e := split_sum (p := p) (σ := σ) (t := t)
  refine ⟨div_nonneg (by linarith) q, div_le_one_of_le₀ (by linarith) q⟩

theorem pays_sum : p.sumR (pays p σ A t) = A := by
  obtain ⟨n, q⟩ := parts (p := p) (σ := σ) (t := t)
  have e := split_sum (p := p) (σ := σ) (t := t)
  have e2 : p.sumR (pays p σ A t) = (p.sumR fun r => min (σ.R .mitigation_costs t r) 0) +
      share p σ A t * p.sumR fun r => max (σ.R .mitigation_costs t r) 0 := by
    rw [← sumR_mul_left, ← sumR_add]
    rfl
  rw [e2]
  rcases q.eq_or_lt with hq | hq
  · rw [← hq] at e ⊢; linarith
  · unfold share; rw [div_mul_cancel₀ _ hq.ne']; ring

theorem pays_le (r : String) : pays p σ A t r ≤ σ.R .mitigation_costs t r := by
  have hs := share_range h0 h1
  have hm := le_max_right (σ.R .mitigation_costs t r) 0
  have := mul_le_mul_of_nonneg_right hs.2 hm
  have e := min_add_max (σ.R .mitigation_costs t r) 0
  unfold pays; linarith

theorem pays_ge (r : String) : min (σ.R .mitigation_costs t r) 0 ≤ pays p σ A t r := by
  have hs := share_range h0 h1
  have := mul_nonneg hs.1 (le_max_right (σ.R .mitigation_costs t r) 0)
  unfold pays; linarith

theorem pays_lt (hlt : A < p.sumR fun r => σ.R .mitigation_costs t r) :
    ∃ r ∈ p.regions, pays p σ A t r < σ.R .mitigation_costs t r := by
  by_contra hno
  push Not at hno
  have := sumR_le (p := p) hno
  have e := pays_sum h0 h1
  have : (p.sumR fun r => σ.R .mitigation_costs t r) ≤ A := by rw [← e]; exact this
  linarith
end

section
variable {a bal : ℕ → String → ℝ} (h : Solution md p σ) (hr : Spec.Reallocation p σ a)
include h hr

/-- Regions that pay no more have at least the capital. -/
theorem capital (hadm : p.Admissible) (hs : Spec.SharedEffort md p) (hK : Spec.CostsBelowCapital p σ)
    (hc : ∀ t ≤ p.tf, 0 < t → ∀ r ∈ p.regions, (x a bal).cost md p t r ≤ σ.R .mitigation_costs t r)
    {t : ℕ} (ht : t ≤ p.tf) {r : String} (hr' : r ∈ p.regions) :
    σ.R .capital_stock t r ≤ (x a bal).K md p t r := by
  induction t with
  | zero => rw [h.eqs.economy.capital_init r hr']; exact le_rfl
  | succ t ih =>
    have hle := ih (by omega)
    have hA : (0 : ℝ) < 2 - (1 - p.dk) ^ p.dt := by linarith [dk_pow_le hadm]
    have e := h.capital_eq hadm ht hr'
    have n := h.eqs.economy.net (t + 1) ht r hr'
    have g := (h.eqs.economy.gross t ht r hr').2
    have e' := (x a bal).K_step md p hadm rfl t r
    rw [hs.transfer] at n
    simp only [transferVal, sub_zero] at n
    have hds : 0 ≤ p.dt * p.sr := mul_nonneg hadm.dt_pos.le hadm.sr_nonneg
    have hcc := mul_le_mul_of_nonneg_left (hc (t + 1) ht (Nat.succ_pos t) r hr') hds
    unfold Drivers.CapStep Drivers.netOf Drivers.grossOf Drivers.transfer at e'
    rw [hs.transfer, dam_eq h hr ht hr'] at e'
    simp only [sub_zero] at e'
    set F := get_TFP_value p (t + 1) r * p.population (t + 1) r ^ (1 - p.alpha) with hFd
    set D := (if p.ignore_damages then (0 : ℝ) else σ.R .damage_costs (t + 1) r) with hD
    refine capital_le (A := 2 - (1 - p.dk) ^ p.dt)
      (B := σ.R .capital_stock t r - p.dt * p.sr * σ.R .mitigation_costs (t + 1) r)
      (B' := (x a bal).K md p t r - p.dt * p.sr * (x a bal).cost md p (t + 1) r)
      (C := p.dt * p.sr * F * (1 - D)) (C' := p.dt * p.sr * F * (1 - D))
      hA ?_ hadm.alpha_nonneg hadm.alpha_lt (by linarith) le_rfl ?_ ?_
    · have := hK t ht r hr'; linarith
    · rw [e, n, g]; ring
    · have hdt := hadm.dt_pos.ne'
      have e2 : p.dt * (((1 - p.dk) ^ p.dt - 1) / p.dt * (x a bal).K md p (t + 1) r) =
          ((1 - p.dk) ^ p.dt - 1) * (x a bal).K md p (t + 1) r := by field_simp
      rw [mul_add, e2] at e'
      linarith

theorem gross (hadm : p.Admissible) (hs : Spec.SharedEffort md p) (hK : Spec.CostsBelowCapital p σ)
    (hc : ∀ t ≤ p.tf, 0 < t → ∀ r ∈ p.regions, (x a bal).cost md p t r ≤ σ.R .mitigation_costs t r)
    {t : ℕ} (ht : t ≤ p.tf) {r : String} (hr' : r ∈ p.regions) :
    σ.R .GDP_gross t r ≤ (x a bal).gross md p t r := by
  unfold Drivers.gross
  cases t with
  | zero => rw [h.eqs.economy.gross_init r hr']; simp
  | succ t =>
    have hKK := capital h hr hadm hs hK hc ht hr'
    rw [(h.eqs.economy.gross t ht r hr').2, if_neg (by omega)]
    unfold Drivers.grossOf
    have hF : 0 < get_TFP_value p (t + 1) r * p.population (t + 1) r ^ (1 - p.alpha) :=
      mul_pos (tfp_pos hadm ht hr') (Real.rpow_pos_of_pos (hadm.pop_pos (t + 1) ht r hr') _)
    refine mul_le_mul_of_nonneg_left ?_ hF.le
    exact Real.rpow_le_rpow (soft_min_pos_ten _).le ((soft_min_strictMono (by norm_num)).monotone hKK) hadm.alpha_nonneg

theorem total_nonneg (hmac : Spec.MacData p) (hs : Spec.SharedEffort md p) {t : ℕ} (ht : t ≤ p.tf) (h0 : 0 < t) :
    (∀ r ∈ p.regions, 0 ≤ p.baseline_emissions t r * ∫ x in (0 : ℝ)..a t r,
      Mitigation.MAC x (σ.G .learning_factor t) (p.MAC_scaling_factor r) p.MAC_gamma p.MAC_beta) ∧
    0 ≤ Spec.totalCost p σ t (a t) := by
  have key : ∀ r ∈ p.regions, 0 ≤ p.baseline_emissions t r * ∫ x in (0 : ℝ)..a t r,
      Mitigation.MAC x (σ.G .learning_factor t) (p.MAC_scaling_factor r) p.MAC_gamma p.MAC_beta := by
    intro r hr'
    rw [← C30_area_under_curve _ _ _ (by linarith [hmac.beta_pos]), Mitigation.AC_real]
    have h1 := (hmac.scaling_pos r hr').le
    have h2 := hmac.gamma_pos.le
    have h3 := (C31_positive h hmac.lot ht).2.2.le
    have h4 := Real.rpow_nonneg (hr.range t ht h0 r hr').1 (p.MAC_beta + 1)
    have h5 := hs.baseline t ht r hr'
    have h6 := hmac.beta_pos
    positivity
  exact ⟨key, sumR_zero.symm.le.trans (sumR_le (p := p) (f := fun _ => 0) key)⟩

omit h hr in
/-- The total of the costs is the total area under the marginal cost curves. -/
theorem sum_costs (htr : md.trade ≠ .globalcostpool) {ρ : Env} (hρ : Solution md p ρ) {t : ℕ} (ht : t ≤ p.tf) :
    (p.sumR fun r => ρ.R .mitigation_costs t r) = p.sumR fun r => ρ.R .area_under_MAC t r := by
  have e := hρ.eqs.mitigation
  have key : (p.sumR fun r => ρ.R .mitigation_costs t r) = (p.sumR fun r => ρ.R .area_under_MAC t r) +
      p.sumR fun r => costBalanceVal ρ md.trade t r := by
    rw [← sumR_add]
    exact sumR_congr fun r hr => by rw [(e.mitigation_costs t ht r hr).2, (e.area t ht r hr).2]
  have hz : (p.sumR fun r => costBalanceVal ρ md.trade t r) = 0 := by
    cases ht' : md.trade with
    | notrade => exact sumR_zero
    | globalcostpool => exact absurd ht' htr
    | emissiontrade => exact (hρ.tradeEqs ht').zero_sum t ht
  rw [key, hz, add_zero]

/-- With trade: everybody pays no more, and somebody less if the total is less. -/
theorem better_utility (hadm : p.Admissible) (hmac : Spec.MacData p) (hs : Spec.SharedEffort md p) (hsr : p.sr < 1)
    (hob : md.objective = .utility) (htr : md.trade = .emissiontrade) (hA : Spec.Affordable p σ)
    (hle : ∀ t ≤ p.tf, 0 < t → Spec.totalCost p σ t (a t) ≤ p.sumR fun r => σ.R .area_under_MAC t r) :
    ∃ τ, Solution md p τ ∧
      (∀ t ≤ p.tf, 0 < t → ∀ r ∈ p.regions, τ.R .relative_abatement t r = a t r) ∧
      ((∃ t ≤ p.tf, 0 < t ∧ Spec.totalCost p σ t (a t) < p.sumR fun r => σ.R .area_under_MAC t r) →
        Spec.objectiveValue md p σ < Spec.objectiveValue md p τ) := by
  have hnp : md.trade ≠ .globalcostpool := by rw [htr]; decide
  set bal : ℕ → String → ℝ := fun t r => pays p σ (Spec.totalCost p σ t (a t)) t r - p.baseline_emissions t r *
      ∫ x in (0 : ℝ)..a t r, Mitigation.MAC x (σ.G .learning_factor t) (p.MAC_scaling_factor r) p.MAC_gamma p.MAC_beta
    with hbal
  have tn := fun {t} (ht : t ≤ p.tf) (h0 : 0 < t) => (total_nonneg h hr hmac hs ht h0).2
  have hle' : ∀ t ≤ p.tf, 0 < t → Spec.totalCost p σ t (a t) ≤ p.sumR fun r => σ.R .mitigation_costs t r :=
    fun t ht h0 => (hle t ht h0).trans_eq (sum_costs hnp h ht).symm
  have cost_pos : ∀ t ≤ p.tf, 0 < t → ∀ r ∈ p.regions,
      (x a bal).cost md p t r = pays p σ (Spec.totalCost p σ t (a t)) t r := by
    intro t ht h0 r hr'
    unfold Drivers.cost Drivers.balance
    rw [area_eq h hr hmac.beta_pos ht, if_neg (by omega), htr]
    show _ + (if t = 0 then 0 else bal t r) = _
    rw [if_neg (by omega), hbal]; ring
  have cost_zero : ∀ r ∈ p.regions, (x a bal).cost md p 0 r = 0 := by
    intro r hr'
    unfold Drivers.cost Drivers.balance
    rw [area_eq h hr hmac.beta_pos (Nat.zero_le _), if_pos rfl, htr]
    simp [x]
  have hc : ∀ t ≤ p.tf, 0 < t → ∀ r ∈ p.regions, (x a bal).cost md p t r ≤ σ.R .mitigation_costs t r := by
    intro t ht h0 r hr'
    rw [cost_pos t ht h0 r hr']
    exact pays_le (tn ht h0) (hle' t ht h0) r
  have hg := fun {t} (ht : t ≤ p.tf) {r} (hr' : r ∈ p.regions) => gross h hr hadm hs hA.costs hc ht hr'
  have hok : (x a bal).Ok md p := by
    refine ok h hr hadm hmac hs hnp (fun _ t ht h0 => ?_) fun t ht r hr' => ?_
    · have e : p.sumR (bal t) = p.sumR (pays p σ (Spec.totalCost p σ t (a t)) t) + -1 * Spec.totalCost p σ t (a t) := by
        unfold Spec.totalCost
        show _ = _ + -1 * p.sumR _
        rw [← sumR_mul_left, ← sumR_add]
        exact sumR_congr fun r _ => by simp only [hbal, Spec.totalCost, Params.sumR]; ring
      rw [e, pays_sum (tn ht h0) (hle' t ht h0)]; ring
    · rcases Nat.eq_zero_or_pos t with rfl | h0
      · rw [cost_zero r hr']; simp
      · rw [if_pos h0, cost_pos t ht h0 r hr']
        have g0 := h.gross_pos hadm ht hr'
        have g1 := hg ht hr'
        have fl := h.eqs.mitigation.rel_costs_min t ht r hr'
        rw [if_pos h0, (h.eqs.mitigation.rel_costs t ht r hr').2, le_div_iff₀ g0] at fl
        rw [le_div_iff₀ (g0.trans_le g1)]
        refine le_trans ?_ (pays_ge (tn ht h0) (hle' t ht h0) r)
        have hf := hs.cost_floor
        refine le_min ?_ (mul_nonpos_of_nonpos_of_nonneg hf (g0.le.trans g1))
        exact (mul_le_mul_of_nonpos_left g1 hf).trans fl
  have hτ := Drivers.build_solution hadm hok
  refine ⟨_, hτ, fun t ht h0 r hr' => ?_, ?_⟩
  · show (if t = 0 then 0 else a t r) = _
    rw [if_neg (by omega)]
  · rintro ⟨t₀, ht₀, h0₀, hlt⟩
    set τ := (x a bal).env md p with hτd
    have net : ∀ t ≤ p.tf, 0 < t → ∀ r ∈ p.regions,
        σ.R .GDP_net t r + (σ.R .mitigation_costs t r - (x a bal).cost md p t r) ≤ τ.R .GDP_net t r := by
      intro t ht h0 r hr'
      have n := h.eqs.economy.net t ht r hr'
      have n' := hτ.eqs.economy.net t ht r hr'
      rw [hs.transfer] at n n'
      simp only [transferVal, sub_zero] at n n'
      have ed : τ.R .damage_costs t r = σ.R .damage_costs t r := dam_eq h hr ht hr'
      have ec : τ.R .mitigation_costs t r = (x a bal).cost md p t r := rfl
      have eg : σ.R .GDP_gross t r ≤ τ.R .GDP_gross t r := hg ht hr'
      have hD := hA.damages t ht r hr'
      rw [n, n', ed, ec]
      have : σ.R .GDP_gross t r * (1 - (if p.ignore_damages then (0 : ℝ) else σ.R .damage_costs t r)) ≤
          τ.R .GDP_gross t r * (1 - (if p.ignore_damages then (0 : ℝ) else σ.R .damage_costs t r)) := by
        refine mul_le_mul_of_nonneg_right eg ?_
        split <;> linarith
      linarith
    have cons : ∀ t ≤ p.tf, 0 < t → ∀ r ∈ p.regions, σ.R .consumption t r ≤ τ.R .consumption t r := by
      intro t ht h0 r hr'
      rw [h.eqs.economy.consumption t ht r hr', hτ.eqs.economy.consumption t ht r hr']
      refine mul_le_mul_of_nonneg_left ?_ (by linarith)
      linarith [net t ht h0 r hr', hc t ht h0 r hr']
    have hw : ∀ t ≤ p.tf, 0 < t → σ.G .yearly_welfare t ≤ τ.G .yearly_welfare t := by
      intro t ht h1
      by_cases hall : ∃ r ∈ p.regions, σ.R .consumption t r < τ.R .consumption t r
      · exact (C44_more_consumption_more_welfare h hτ ht (hadm.pop_pos t ht) (cons t ht h1) hall).le
      · push Not at hall
        exact (C44_only_consumption_matters rfl h hτ ht fun r hr => le_antisymm (cons t ht h1 r hr) (hall r hr)).1.le
    unfold Spec.objectiveValue
    rw [hob]
    refine C45_more_welfare_better h hτ hob hadm.dt_pos hw ⟨t₀, ht₀, h0₀, ?_⟩
    obtain ⟨r, hr', hpl⟩ := pays_lt (tn ht₀ h0₀) (hle' t₀ ht₀ h0₀) (hlt.trans_eq (sum_costs hnp h ht₀).symm)
    refine C44_more_consumption_more_welfare h hτ ht₀ (hadm.pop_pos t₀ ht₀) (cons t₀ ht₀ h0₀) ⟨r, hr', ?_⟩
    rw [h.eqs.economy.consumption t₀ ht₀ r hr', hτ.eqs.economy.consumption t₀ ht₀ r hr']
    refine mul_lt_mul_of_pos_left ?_ (by linarith)
    have := net t₀ ht₀ h0₀ r hr'
    rw [cost_pos t₀ ht₀ h0₀ r hr'] at this
    linarith

/-- With the objective "global costs" and no damages only the total counts. -/
theorem better_costs (hadm : p.Admissible) (hmac : Spec.MacData p) (hs : Spec.SharedEffort md p)
    (hob : md.objective = .globalcosts) (hnd : md.damage = .nodamage)
    (hle : ∀ t ≤ p.tf, 0 < t → Spec.totalCost p σ t (a t) ≤ p.sumR fun r => σ.R .area_under_MAC t r) :
    ∃ τ, Solution md p τ ∧
      (∀ t ≤ p.tf, 0 < t → ∀ r ∈ p.regions, τ.R .relative_abatement t r = a t r) ∧
      ((∃ t ≤ p.tf, 0 < t ∧ Spec.totalCost p σ t (a t) < p.sumR fun r => σ.R .area_under_MAC t r) →
        Spec.objectiveValue md p σ < Spec.objectiveValue md p τ) := by
  have hnp : md.trade ≠ .globalcostpool := h.trade_ne
  set bal : ℕ → String → ℝ := fun _ _ => 0 with hbal
  have cost : ∀ t ≤ p.tf, ∀ r ∈ p.regions, (x a bal).cost md p t r = (x a bal).area p t r := by
    intro t ht r hr'
    unfold Drivers.cost Drivers.balance
    cases md.trade <;> simp [x, hbal]
  have area_nonneg : ∀ t ≤ p.tf, ∀ r ∈ p.regions, 0 ≤ (x a bal).area p t r := by
    intro t ht r hr'
    rw [area_eq h hr hmac.beta_pos ht]
    split
    · exact le_rfl
    · exact (total_nonneg h hr hmac hs ht (by omega)).1 r hr'
  have hok : (x a bal).Ok md p := by
    refine ok h hr hadm hmac hs hnp (fun _ t ht h0 => sumR_zero) fun t ht r hr' => ?_
    have g0 := (x a bal).gross_pos md p hadm ht hr'
    have : 0 ≤ (x a bal).cost md p t r / (x a bal).gross md p t r :=
      div_nonneg ((area_nonneg t ht r hr').trans_eq (cost t ht r hr').symm) g0.le
    have := hs.cost_floor
    split <;> linarith
  have hτ := Drivers.build_solution hadm hok
  refine ⟨_, hτ, fun t ht h0 r hr' => ?_, ?_⟩
  · show (if t = 0 then 0 else a t r) = _
    rw [if_neg (by omega)]
  · rintro ⟨t₀, ht₀, h0₀, hlt⟩
    set τ := (x a bal).env md p with hτd
    have hsum : ∀ {ρ : Env}, Solution md p ρ → ∀ t ≤ p.tf,
        (p.regions.map fun r => ρ.R .damage_costs t r * ρ.R .GDP_gross t r).sum = 0 := by
      intro ρ hρ t ht
      have hz := hρ.eqs.damages
      rw [hnd] at hz
      have hz' : ∀ t ≤ p.tf, ∀ r ∈ p.regions, ρ.R .damage_costs t r = 0 := hz
      refine Eq.trans (sumR_congr (p := p) (g := fun _ => 0) fun r hr => ?_) sumR_zero
      rw [hz' t ht r hr, zero_mul]
    have hτs : ∀ t ≤ p.tf, 0 < t → (p.regions.map fun r => τ.R .mitigation_costs t r).sum = Spec.totalCost p σ t (a t) := by
      intro t ht h0
      refine sumR_congr (p := p) fun r hr' => ?_
      show (x a bal).cost md p t r = _
      rw [cost t ht r hr', area_eq h hr hmac.beta_pos ht, if_neg (by omega)]
    have hσs : ∀ t ≤ p.tf, (p.regions.map fun r => σ.R .mitigation_costs t r).sum = p.sumR fun r => σ.R .area_under_MAC t r :=
      fun t ht => sum_costs hnp h ht
    have hdt := hadm.dt_pos
    have hw : ∀ t : ℕ, 0 < p.dt * Real.exp (-p.PRTP * (p.year (t + 1 : ℕ) - p.beginyear)) := fun t =>
      mul_pos hdt (Real.exp_pos _)
    unfold Spec.objectiveValue
    rw [hob]
    show -σ.G .NPV p.tf < -τ.G .NPV p.tf
    rw [C45_globalcosts h hob le_rfl, C45_globalcosts hτ hob le_rfl]
    obtain ⟨t₀, rfl⟩ : ∃ s, t₀ = s + 1 := ⟨t₀ - 1, by omega⟩
    refine neg_lt_neg (Finset.sum_lt_sum (fun t ht => ?_) ⟨t₀, Finset.mem_range.2 ht₀, ?_⟩)
    · have ht' : t + 1 ≤ p.tf := by simpa using ht
      dsimp only
      rw [hsum h (t + 1) ht', hsum hτ (t + 1) ht', add_zero, add_zero, hτs _ ht' (Nat.succ_pos t), hσs _ ht']
      exact mul_le_mul_of_nonneg_left (hle _ ht' (Nat.succ_pos t)) (hw t).le
    · dsimp only
      rw [hsum h (t₀ + 1) ht₀, hsum hτ (t₀ + 1) ht₀, add_zero, add_zero, hτs _ ht₀ (Nat.succ_pos t₀), hσs _ ht₀]
      exact mul_lt_mul_of_pos_left hlt (hw t₀)
end
end Shift

/-! ## The theorems -/

/-- A region could abate a little more in year `t`: the bounds and its limits leave room. -/
structure Spec.CanAbateMore (p : Params) (σ : Env) (t : ℕ) (r : String) : Prop where
  bound : σ.R .relative_abatement t r < 5 / 2
  min_level : ∀ l, p.regional_min_level = some l → l < σ.R .regional_emissions t r
  inertia : ∀ i, p.inertia_regional = some i →
    p.dt * i * p.baseline_emissions 0 r < σ.R .regional_emissions t r - σ.R .regional_emissions (t - 1 : ℕ) r
  non_increasing : p.non_increasing_emissions_after_2100 = true → t < p.tf → 2100 < p.year t →
    σ.R .regional_emissions (t + 1) r < σ.R .regional_emissions t r

/-- The limits would let a region abate a little less in year `t`. -/
structure Spec.CanAbateLess (p : Params) (σ : Env) (t : ℕ) (r : String) : Prop where
  inertia : ∀ i, p.inertia_regional = some i → t < p.tf →
    p.dt * i * p.baseline_emissions 0 r < σ.R .regional_emissions (t + 1) r - σ.R .regional_emissions t r
  non_increasing : p.non_increasing_emissions_after_2100 = true → 2100 < p.year (t - 1 : ℕ) →
    σ.R .regional_emissions t r < σ.R .regional_emissions (t - 1 : ℕ) r

/-- **C77.** No other distribution of the abatement that reaches the world emissions of the optimum costs no more in
every year and less in some. -/
theorem C77_no_cheaper_path (hadm : p.Admissible) (hmac : Spec.MacData p) (hs : Spec.SharedEffort md p) (hsr : p.sr < 1)
    (h : Optimal md p σ) (hA : md.objective = .utility → Spec.Affordable p σ) {a : ℕ → String → ℝ}
    (ha : Spec.Reallocation p σ a)
    (hle : ∀ t ≤ p.tf, 0 < t → Spec.totalCost p σ t (a t) ≤ (p.regions.map fun r => σ.R .area_under_MAC t r).sum) :
    ∀ t ≤ p.tf, 0 < t → Spec.totalCost p σ t (a t) = (p.regions.map fun r => σ.R .area_under_MAC t r).sum := by
  have key : ∃ τ, Solution md p τ ∧
      (∀ t ≤ p.tf, 0 < t → ∀ r ∈ p.regions, τ.R .relative_abatement t r = a t r) ∧
      ((∃ t ≤ p.tf, 0 < t ∧ Spec.totalCost p σ t (a t) < p.sumR fun r => σ.R .area_under_MAC t r) →
        Spec.objectiveValue md p σ < Spec.objectiveValue md p τ) := by
    rcases hs.objective with ⟨hob, htr⟩ | ⟨hob, hnd⟩
    · exact Shift.better_utility h.1 ha hadm hmac hs hsr hob htr (hA hob) hle
    · exact Shift.better_costs h.1 ha hadm hmac hs hob hnd hle
  obtain ⟨τ, hτ, -, hb⟩ := key
  intro t ht h0
  by_contra hne
  exact absurd (hb ⟨t, ht, h0, lt_of_le_of_ne (hle t ht h0) hne⟩) (not_lt.2 (h.best hτ))

namespace Shift
/-- The abatement of a solution with the same world emissions is a reallocation. -/
theorem of_solution (hmac : Spec.MacData p) (hex : p.use_carbon_intensity_for_baseline = false)
    (hst : p.beginyear ≤ 2100) (h : Solution md p σ) (h' : Solution md p τ)
    (hw : ∀ t ≤ p.tf, τ.G .global_emissions t = σ.G .global_emissions t) :
    Spec.Reallocation p σ (fun t r => τ.R .relative_abatement t r) ∧
    ∀ t ≤ p.tf, Spec.totalCost p σ t (fun r => τ.R .relative_abatement t r) =
      (p.regions.map fun r => τ.R .area_under_MAC t r).sum := by
  have hem : ∀ t ≤ p.tf, 0 < t → ∀ r ∈ p.regions,
      (1 - τ.R .relative_abatement t r) * p.baseline_emissions t r = τ.R .regional_emissions t r := by
    intro t ht h0 r hr
    rw [C23_abated_baseline h' ht h0 hr, (C23_baseline h' ht hr).1 hex]
  have hcum : ∀ t ≤ p.tf, τ.G .cumulative_emissions t = σ.G .cumulative_emissions t := by
    intro t
    induction t with
    | zero => intro _; exact h'.eqs.emissions.cumulative_init.trans h.eqs.emissions.cumulative_init.symm
    | succ t ih =>
      intro ht
      rw [h.eqs.emissions.cumulative t ht, h'.eqs.emissions.cumulative t ht, ih (by omega),
        hw t (by omega), hw _ ht]
  have hl : ∀ t ≤ p.tf, τ.G .learning_factor t = σ.G .learning_factor t := by
    intro t ht
    have e := h.eqs.mitigation
    have e' := h'.eqs.mitigation
    rw [e.learning t ht, e'.learning t ht, (e.lbd t ht).2, (e'.lbd t ht).2, (e.lot t ht).2.2, (e'.lot t ht).2.2, hcum t ht]
  refine ⟨?_, fun t ht => ?_⟩
  · constructor
    case world =>
      intro t ht h0
      rw [← hw t ht, C23_global_is_sum h' ht]
      exact sumR_congr (p := p) fun r hr => hem t ht h0 r hr
    case range => exact fun t ht _ r hr => h'.abatement_bounds ht hr
    case price =>
      intro t ht _ r hr
      rw [← hl t ht, ← (C30_solution h' (by linarith [hmac.beta_pos]) ht hr).1]
      exact (h'.price_bounds ht hr).2
    case min_level =>
      intro l hl t ht h0 r hr
      rw [hem t ht h0 r hr]; exact h'.eqs.emissions.regional_min_level t ht r hr l hl
    case inertia_first =>
      intro i hi h0 r hr
      have := h'.eqs.emissions.regional_inertia 0 h0 r hr i hi
      rw [hem 1 h0 one_pos r hr, ← (C32_emissions h').1 r hr]
      rw [← (C32_emissions h').1 r hr] at this
      exact this
    case inertia =>
      intro i hi t ht h0 r hr
      rw [hem (t + 1) ht (Nat.succ_pos t) r hr, hem t (Nat.le_of_lt ht) h0 r hr]
      exact h'.eqs.emissions.regional_inertia t ht r hr i hi
    case non_increasing =>
      intro hn t ht hy r hr
      have h0 : 0 < t := by
        rcases Nat.eq_zero_or_pos t with rfl | h0
        · simp [Params.year] at hy; linarith
        · exact h0
      have := h'.eqs.emissions.non_increasing (t + 1) ht r hr (by rw [cast_succ_sub_one]; exact hy) hn
      rw [cast_succ_sub_one] at this
      rw [hem (t + 1) ht (Nat.succ_pos t) r hr, hem t (Nat.le_of_lt ht) h0 r hr]
      exact sub_nonpos.1 this
  · refine sumR_congr (p := p) fun r hr => ?_
    rw [(C30_solution h' (by linarith [hmac.beta_pos]) ht hr).2, (C23_baseline h' ht hr).1 hex, hl t ht]
end Shift

/-- **C77.** Of all runs with the world emissions of the optimum, none has total abatement costs that are no higher in
every year and lower in some. -/
theorem C77_least_cost (hadm : p.Admissible) (hmac : Spec.MacData p) (hs : Spec.SharedEffort md p) (hsr : p.sr < 1)
    (h : Optimal md p σ) (hA : md.objective = .utility → Spec.Affordable p σ) (h' : Solution md p τ)
    (hw : ∀ t ≤ p.tf, τ.G .global_emissions t = σ.G .global_emissions t)
    (hle : ∀ t ≤ p.tf, (p.regions.map fun r => τ.R .area_under_MAC t r).sum ≤
      (p.regions.map fun r => σ.R .area_under_MAC t r).sum) :
    ∀ t ≤ p.tf, (p.regions.map fun r => τ.R .area_under_MAC t r).sum =
      (p.regions.map fun r => σ.R .area_under_MAC t r).sum := by
  obtain ⟨hre, hc⟩ := Shift.of_solution hmac hs.exogenous hs.start h.1 h' hw
  intro t ht
  rcases Nat.eq_zero_or_pos t with rfl | h0
  · exact sumR_congr (p := p) fun r hr =>
      ((C32_no_abatement h' hmac hr).2.2).trans ((C32_no_abatement h.1 hmac hr).2.2).symm
  · rw [← hc t ht]
    exact C77_no_cheaper_path hadm hmac hs hsr h hA hre (fun t ht _ => (hc t ht).trans_le (hle t ht)) t ht h0

/-- **C77.** Without limits on how fast a region's emissions change, this holds year by year: whatever distribution `a` of
the abatement of one year reaches the world emissions of the optimum in that year, it costs at least as much. -/
theorem C77_each_year (hadm : p.Admissible) (hmac : Spec.MacData p) (hs : Spec.SharedEffort md p) (hsr : p.sr < 1)
    (h : Optimal md p σ) (hA : md.objective = .utility → Spec.Affordable p σ)
    (hi : p.inertia_regional = none) (hn : p.non_increasing_emissions_after_2100 = false)
    {t : ℕ} (ht : t ≤ p.tf) (h0 : 0 < t) {a : String → ℝ}
    (hw : (p.regions.map fun r => (1 - a r) * p.baseline_emissions t r).sum = σ.G .global_emissions t)
    (hrange : ∀ r ∈ p.regions, 0 ≤ a r ∧ a r ≤ 5 / 2)
    (hprice : ∀ r ∈ p.regions,
      Mitigation.MAC (a r) (σ.G .learning_factor t) (p.MAC_scaling_factor r) p.MAC_gamma p.MAC_beta ≤ 2 * p.MAC_gamma)
    (hmin : ∀ l, p.regional_min_level = some l → ∀ r ∈ p.regions, l ≤ (1 - a r) * p.baseline_emissions t r) :
    (p.regions.map fun r => σ.R .area_under_MAC t r).sum ≤ Spec.totalCost p σ t a := by
  by_contra hlt
  push Not at hlt
  obtain ⟨hre, hc⟩ := Shift.of_solution hmac hs.exogenous hs.start h.1 h.1 fun _ _ => rfl
  set a' : ℕ → String → ℝ := fun u r => if u = t then a r else σ.R .relative_abatement u r with ha'
  have at_t : a' t = a := by funext r; simp [ha']
  have at_u : ∀ u, u ≠ t → a' u = fun r => σ.R .relative_abatement u r := by
    intro u hu; funext r; simp [ha', hu]
  have hre' : Spec.Reallocation p σ a' := by
    constructor
    case world =>
      intro u hu h0
      by_cases hut : u = t
      · subst hut; rw [at_t]; exact hw
      · rw [at_u u hut]; exact hre.world u hu h0
    case range =>
      intro u hu h0
      by_cases hut : u = t
      · subst hut; rw [at_t]; exact hrange
      · rw [at_u u hut]; exact hre.range u hu h0
    case price =>
      intro u hu h0
      by_cases hut : u = t
      · subst hut; rw [at_t]; exact hprice
      · rw [at_u u hut]; exact hre.price u hu h0
    case min_level =>
      intro l hl u hu h0
      by_cases hut : u = t
      · subst hut; rw [at_t]; exact hmin l hl
      · rw [at_u u hut]; exact hre.min_level l hl u hu h0
    case inertia_first => intro i hi'; rw [hi] at hi'; cases hi'
    case inertia => intro i hi'; rw [hi] at hi'; cases hi'
    case non_increasing => intro hn'; rw [hn] at hn'; cases hn'
  have := C77_no_cheaper_path hadm hmac hs hsr h hA hre' (fun u hu h0 => ?_) t ht h0
  · rw [at_t] at this; linarith
  · by_cases hut : u = t
    · subst hut; rw [at_t]; exact hlt.le
    · rw [at_u u hut]; exact (hc u hu).le

namespace Shift
theorem single_sum {L : List String} (hnd : L.Nodup) {r : String} (hr : r ∈ L) (x : ℝ) :
    (L.map fun q => if q = r then x else 0).sum = x := by
  induction L with
  | nil => cases hr
  | cons q L ih =>
    rw [List.nodup_cons] at hnd
    rw [List.map_cons, List.sum_cons]
    by_cases hq : q = r
    · subst hq
      have : (L.map fun q' => if q' = q then x else 0) = L.map fun _ => 0 :=
        List.map_congr_left fun q' hq' => if_neg fun (e : q' = q) => hnd.1 (e ▸ hq')
      rw [this]; simp
    · rw [if_neg hq, zero_add, ih hnd.2 ((List.mem_cons.1 hr).resolve_left fun e => hq e.symm)]

theorem pair_sum (hnd : p.regions.Nodup) {r s : String} (hr : r ∈ p.regions) (hs : s ∈ p.regions) (hrs : r ≠ s)
    (f : String → ℝ) (x y : ℝ) :
    (p.sumR fun q => f q + if q = r then x else if q = s then y else 0) = p.sumR f + x + y := by
  have e : (p.sumR fun q => f q + if q = r then x else if q = s then y else 0) =
      p.sumR fun q => (f q + if q = r then x else 0) + if q = s then y else 0 := by
    refine sumR_congr fun q _ => ?_
    by_cases h1 : q = r
    · subst h1; simp [hrs]
    · simp [h1]
  have e1 : (p.sumR fun q => if q = r then x else 0) = x := single_sum hnd hr x
  have e2 : (p.sumR fun q => if q = s then y else 0) = y := single_sum hnd hs y
  rw [e, sumR_add, sumR_add, e1, e2]
end Shift

/-- **C77.** No region that could abate less has a higher carbon price than a region that could abate more. -/
theorem C77_price_order (hadm : p.Admissible) (hmac : Spec.MacData p) (hs : Spec.SharedEffort md p) (hsr : p.sr < 1)
    (h : Optimal md p σ) (hA : md.objective = .utility → Spec.Affordable p σ) (hnd : p.regions.Nodup)
    {t : ℕ} (ht : t ≤ p.tf) (h0 : 0 < t) {r s : String} (hr : r ∈ p.regions) (hs' : s ∈ p.regions)
    (hbr : 0 < p.baseline_emissions t r) (hbs : 0 < p.baseline_emissions t s)
    (hmore : Spec.CanAbateMore p σ t r) (hless : Spec.CanAbateLess p σ t s) :
    σ.R .carbonprice t s ≤ σ.R .carbonprice t r := by
  by_contra hlt
  push Not at hlt
  have hrs : r ≠ s := by rintro rfl; exact lt_irrefl _ hlt
  obtain ⟨hre, hc⟩ := Shift.of_solution hmac hs.exogenous hs.start h.1 h.1 fun _ _ => rfl
  have hL := (C31_positive h.1 hmac.lot ht).2.2
  have hβ := hmac.beta_pos
  have pr := (C30_solution h.1 (by linarith) ht hr).1
  have ps := (C30_solution h.1 (by linarith) ht hs').1
  set L := σ.G .learning_factor t with hLd
  set ar := σ.R .relative_abatement t r with har
  set as := σ.R .relative_abatement t s with has
  set br := p.baseline_emissions t r with hbrd
  set bs := p.baseline_emissions t s with hbsd
  have ar0 : 0 ≤ ar := (h.1.abatement_bounds ht hr).1
  have as1 : as ≤ 5 / 2 := (h.1.abatement_bounds ht hs').2
  have as0 : 0 < as := by
    rcases (h.1.abatement_bounds ht hs').1.eq_or_lt with h1 | h1
    · have h1 : as = 0 := h1.symm
      rw [h1, Mitigation.MAC_real, Real.zero_rpow hβ.ne', mul_zero] at ps
      have := (h.1.price_bounds ht hr).1
      linarith
    · exact h1
  -- the costs of the two regions when `ε` more is abated in `r` and less in `s`
  set f : ℝ → ℝ := fun ε =>
    br * Mitigation.AC (ar + ε / br) L (p.MAC_scaling_factor r) p.MAC_gamma p.MAC_beta +
    bs * Mitigation.AC (as - ε / bs) L (p.MAC_scaling_factor s) p.MAC_gamma p.MAC_beta with hf
  have hfd : HasDerivAt f (σ.R .carbonprice t r - σ.R .carbonprice t s) 0 := by
    have d1 := C30_derivative L (p.MAC_scaling_factor r) p.MAC_gamma (a := ar + 0 / br) (b := p.MAC_beta)
      (.inr hβ.le) (by linarith)
    have d2 := C30_derivative L (p.MAC_scaling_factor s) p.MAC_gamma (a := as - 0 / bs) (b := p.MAC_beta)
      (.inr hβ.le) (by linarith)
    have i1 : HasDerivAt (fun ε : ℝ => ar + ε / br) (1 / br) 0 := ((hasDerivAt_id (0 : ℝ)).div_const br).const_add ar
    have i2 : HasDerivAt (fun ε : ℝ => as - ε / bs) (-(1 / bs)) 0 := ((hasDerivAt_id (0 : ℝ)).div_const bs).const_sub as
    have c1 := (HasDerivAt.comp (0 : ℝ) d1 i1).const_mul br
    have c2 := (HasDerivAt.comp (0 : ℝ) d2 i2).const_mul bs
    have c := c1.add c2
    refine HasDerivAt.congr_deriv c ?_
    rw [pr, ps]
    simp only [zero_div, add_zero, sub_zero]
    field_simp
    ring
  have ev1 : ∀ᶠ ε in nhdsWithin (0 : ℝ) (Set.Ioi 0), f ε < f 0 := by
    have := hfd.tendsto_slope_zero_right.eventually (gt_mem_nhds (sub_neg.2 hlt))
    filter_upwards [this, self_mem_nhdsWithin] with ε h1 h2
    have h2 : 0 < ε := h2
    rw [zero_add, smul_eq_mul, ← div_eq_inv_mul, div_neg_iff] at h1
    rcases h1 with h1 | h1 <;> linarith [h1.1, h1.2]
  -- small changes keep what holds strictly
  have small : ∀ (g : ℝ → ℝ) (c : ℝ), Continuous g → g 0 < c → ∀ᶠ ε in nhdsWithin (0 : ℝ) (Set.Ioi 0), g ε < c := by
    intro g c hg h1
    exact (hg.tendsto 0 |>.eventually (gt_mem_nhds h1)).filter_mono nhdsWithin_le_nhds
  have em : ∀ u ≤ p.tf, 0 < u → ∀ q ∈ p.regions,
      (1 - σ.R .relative_abatement u q) * p.baseline_emissions u q = σ.R .regional_emissions u q := by
    intro u hu hu0 q hq
    rw [C23_abated_baseline h.1 hu hu0 hq, (C23_baseline h.1 hu hq).1 hs.exogenous]
  have emr := em t ht h0 r hr
  have ems := em t ht h0 s hs'
  have ev2 : ∀ᶠ ε in nhdsWithin (0 : ℝ) (Set.Ioi 0), ar + ε / br < 5 / 2 :=
    small _ _ (by fun_prop) (by simpa using hmore.bound)
  have ev3 : ∀ᶠ ε in nhdsWithin (0 : ℝ) (Set.Ioi 0), -(as - ε / bs) < 0 :=
    small _ _ (by fun_prop) (by simpa using as0)
  have ev4 : ∀ᶠ ε in nhdsWithin (0 : ℝ) (Set.Ioi 0),
      Mitigation.MAC (ar + ε / br) L (p.MAC_scaling_factor r) p.MAC_gamma p.MAC_beta < 2 * p.MAC_gamma := by
    refine small _ _ ?_ ?_
    · simp only [Mitigation.MAC_real]
      refine continuous_const.mul (Continuous.rpow_const (by fun_prop) fun _ => .inr hβ.le)
    · simp only [zero_div, add_zero]
      rw [← pr]
      exact hlt.trans_le (h.1.price_bounds ht hs').2
  have ev5 : ∀ᶠ ε in nhdsWithin (0 : ℝ) (Set.Ioi 0), ∀ l, p.regional_min_level = some l →
      ε + l < σ.R .regional_emissions t r := by
    cases hl : p.regional_min_level with
    | none => exact Filter.Eventually.of_forall fun ε l hl' => by cases hl'
    | some l =>
      refine (small (fun ε => ε + l) _ (by fun_prop) (by simpa using hmore.min_level l hl)).mono fun ε h1 l' hl' => ?_
      cases hl'; exact h1
  have ev6 : ∀ᶠ ε in nhdsWithin (0 : ℝ) (Set.Ioi 0), ∀ i, p.inertia_regional = some i →
      ε + p.dt * i * p.baseline_emissions 0 r < σ.R .regional_emissions t r - σ.R .regional_emissions (t - 1 : ℕ) r ∧
      (t < p.tf → ε + p.dt * i * p.baseline_emissions 0 s <
        σ.R .regional_emissions (t + 1) s - σ.R .regional_emissions t s) := by
    cases hi : p.inertia_regional with
    | none => exact Filter.Eventually.of_forall fun ε l hl' => by cases hl'
    | some i =>
      have e1 := small (fun ε => ε + p.dt * i * p.baseline_emissions 0 r) _ (by fun_prop)
        (by simpa using hmore.inertia i hi)
      have e2 : ∀ᶠ ε in nhdsWithin (0 : ℝ) (Set.Ioi 0), (t < p.tf → ε + p.dt * i * p.baseline_emissions 0 s <
        σ.R .regional_emissions (t + 1) s - σ.R .regional_emissions t s) := by
        by_cases htf : t < p.tf
        · exact (small (fun ε => ε + p.dt * i * p.baseline_emissions 0 s) _ (by fun_prop)
            (by simpa using hless.inertia i hi htf)).mono fun ε h1 _ => h1
        · exact Filter.Eventually.of_forall fun ε h1 => absurd h1 htf
      filter_upwards [e1, e2] with ε h1 h2 i' hi'
      cases hi'; exact ⟨h1, h2⟩
  have ev7 : ∀ᶠ ε in nhdsWithin (0 : ℝ) (Set.Ioi 0), p.non_increasing_emissions_after_2100 = true → t < p.tf →
      2100 < p.year t → ε + σ.R .regional_emissions (t + 1) r < σ.R .regional_emissions t r := by
    by_cases hh : p.non_increasing_emissions_after_2100 = true ∧ t < p.tf ∧ 2100 < p.year t
    · exact (small (fun ε => ε + σ.R .regional_emissions (t + 1) r) _ (by fun_prop)
        (by simpa using hmore.non_increasing hh.1 hh.2.1 hh.2.2)).mono fun ε h1 _ _ _ => h1
    · exact Filter.Eventually.of_forall fun ε h1 h2 h3 => absurd ⟨h1, h2, h3⟩ hh
  have ev8 : ∀ᶠ ε in nhdsWithin (0 : ℝ) (Set.Ioi 0), p.non_increasing_emissions_after_2100 = true →
      2100 < p.year (t - 1 : ℕ) → ε + σ.R .regional_emissions t s < σ.R .regional_emissions (t - 1 : ℕ) s := by
    by_cases hh : p.non_increasing_emissions_after_2100 = true ∧ 2100 < p.year (t - 1 : ℕ)
    · exact (small (fun ε => ε + σ.R .regional_emissions t s) _ (by fun_prop)
        (by simpa using hless.non_increasing hh.1 hh.2)).mono fun ε h1 _ _ => h1
    · exact Filter.Eventually.of_forall fun ε h1 h2 => absurd ⟨h1, h2⟩ hh
  have ev0 : ∀ᶠ ε in nhdsWithin (0 : ℝ) (Set.Ioi 0), 0 < ε := self_mem_nhdsWithin
  obtain ⟨ε, ⟨⟨⟨⟨⟨⟨⟨⟨k0, k1⟩, k2⟩, k3⟩, k4⟩, k5⟩, k6⟩, k7⟩, k8⟩⟩ :=
    ((((((((ev0.and ev1).and ev2).and ev3).and ev4).and ev5).and ev6).and ev7).and ev8).exists
  -- the reallocation
  set a' : ℕ → String → ℝ := fun u q => if u = t then (if q = r then ar + ε / br else if q = s then as - ε / bs
    else σ.R .relative_abatement u q) else σ.R .relative_abatement u q with ha'
  have atr : a' t r = ar + ε / br := by simp [ha']
  have ats : a' t s = as - ε / bs := by simp [ha', hrs.symm]
  have ato : ∀ q, q ≠ r → q ≠ s → a' t q = σ.R .relative_abatement t q := by
    intro q h1 h2; simp [ha', h1, h2]
  have at_u : ∀ u, u ≠ t → ∀ q, a' u q = σ.R .relative_abatement u q := by
    intro u hu q; simp [ha', hu]
  have emr' : (1 - a' t r) * p.baseline_emissions t r = σ.R .regional_emissions t r - ε := by
    rw [atr, ← emr, ← hbrd, ← har]; field_simp; ring
  have ems' : (1 - a' t s) * p.baseline_emissions t s = σ.R .regional_emissions t s + ε := by
    rw [ats, ← ems, ← hbsd, ← has]; field_simp; ring
  -- emissions after the change
  have hem : ∀ u ≤ p.tf, 0 < u → ∀ q ∈ p.regions, (1 - a' u q) * p.baseline_emissions u q =
      σ.R .regional_emissions u q + (if u = t then (if q = r then -ε else if q = s then ε else 0) else 0) := by
    intro u hu hu0 q hq
    by_cases hut : u = t
    · subst hut
      rw [if_pos rfl]
      by_cases hqr : q = r
      · subst hqr; rw [emr']; simp; ring
      · by_cases hqs : q = s
        · subst hqs; rw [ems']; simp [hqr]
        · rw [ato q hqr hqs, em u hu hu0 q hq]; simp [hqr, hqs]
    · rw [at_u u hut, em u hu hu0 q hq]; simp [hut]
  have hre' : Spec.Reallocation p σ a' := by
    constructor
    case world =>
      intro u hu hu0
      have e1 : (p.sumR fun q => (1 - a' u q) * p.baseline_emissions u q) =
          p.sumR fun q => σ.R .regional_emissions u q +
            (if u = t then (if q = r then -ε else if q = s then ε else 0) else 0) := sumR_congr (hem u hu hu0)
      refine e1.trans ?_
      rw [C23_global_is_sum h.1 hu]
      by_cases hut : u = t
      · simp only [hut, if_true]
        rw [Shift.pair_sum hnd hr hs' hrs]
        unfold Params.sumR; ring
      · simp only [hut, if_false, add_zero]
        rfl
    case range =>
      intro u hu hu0 q hq
      have hb := h.1.abatement_bounds hu hq
      by_cases hut : u = t
      · subst hut
        by_cases hqr : q = r
        · subst hqr
          rw [atr]
          exact ⟨add_nonneg ar0 (div_nonneg k0.le hbr.le), k2.le⟩
        · by_cases hqs : q = s
          · subst hqs
            rw [ats]
            have := div_nonneg k0.le hbs.le
            exact ⟨by linarith, by linarith⟩
          · rw [ato q hqr hqs]; exact hb
      · rw [at_u u hut]; exact hb
    case price =>
      intro u hu hu0 q hq
      have hb := hre.price u hu hu0 q hq
      by_cases hut : u = t
      · subst hut
        by_cases hqr : q = r
        · subst hqr; rw [atr]; exact k4.le
        · by_cases hqs : q = s
          · subst hqs
            refine le_trans ?_ hb
            rw [ats]
            refine (C30_marginal_strictMono hL (hmac.scaling_pos q hq) hmac.gamma_pos hβ).monotoneOn ?_ ?_ ?_
            · show (0 : ℝ) ≤ as - ε / bs
              linarith
            · exact as0.le
            · have := div_nonneg k0.le hbs.le
              show as - ε / bs ≤ as
              linarith
          · rw [ato q hqr hqs]; exact hb
      · rw [at_u u hut]; exact hb
    case min_level =>
      intro l hl u hu hu0 q hq
      rw [hem u hu hu0 q hq]
      have hb := h.1.eqs.emissions.regional_min_level u hu q hq l hl
      have := k5 l hl
      split
      · rename_i hut; subst hut
        split
        · rename_i e; subst e; linarith
        · split <;> linarith
      · linarith
    case inertia_first =>
      intro i hi htf q hq
      rw [hem 1 htf one_pos q hq]
      have hb := h.1.eqs.emissions.regional_inertia 0 htf q hq i hi
      have e0 := (C32_emissions h.1).1 q hq
      rw [e0] at hb
      have hb' : p.dt * i * p.baseline_emissions 0 q ≤ σ.R .regional_emissions 1 q - p.baseline_emissions 0 q := hb
      have := (k6 i hi).1
      split
      · rename_i hut; subst hut
        split
        · rename_i e; subst e
          have e0' : σ.R .regional_emissions (1 - 1 : ℕ) q = p.baseline_emissions 0 q := e0
          rw [e0'] at this
          linarith
        · split <;> linarith
      · linarith
    case inertia =>
      intro i hi u hu hu0 q hq
      rw [hem (u + 1) hu (Nat.succ_pos u) q hq, hem u (Nat.le_of_lt hu) hu0 q hq]
      have hb := h.1.eqs.emissions.regional_inertia u hu q hq i hi
      have kk := k6 i hi
      by_cases h1 : u + 1 = t
      · subst h1
        rw [if_pos rfl, if_neg (by omega : ¬ u = u + 1), add_zero]
        split
        · rename_i e; subst e
          have := kk.1
          rw [Nat.add_sub_cancel] at this
          linarith
        · split <;> linarith
      · rw [if_neg h1, add_zero]
        by_cases h2 : u = t
        · subst h2
          rw [if_pos rfl]
          split
          · linarith
          · split
            · rename_i e; subst e
              have := kk.2 hu
              linarith
            · linarith
        · rw [if_neg h2, add_zero]; exact hb
    case non_increasing =>
      intro hn u hu hy q hq
      have hu0 : 0 < u := by
        rcases Nat.eq_zero_or_pos u with rfl | h0
        · have := hs.start
          simp [Params.year] at hy; linarith
        · exact h0
      rw [hem (u + 1) hu (Nat.succ_pos u) q hq, hem u (Nat.le_of_lt hu) hu0 q hq]
      have hb := h.1.eqs.emissions.non_increasing (u + 1) hu q hq (by rw [cast_succ_sub_one]; exact hy) hn
      rw [cast_succ_sub_one] at hb
      have hb' : σ.R .regional_emissions (u + 1 : ℕ) q ≤ σ.R .regional_emissions u q := sub_nonpos.1 hb
      by_cases h1 : u + 1 = t
      · subst h1
        rw [if_pos rfl, if_neg (by omega : ¬ u = u + 1), add_zero]
        split
        · linarith
        · split
          · rename_i e; subst e
            have := k8 hn hy
            rw [Nat.add_sub_cancel] at this
            linarith
          · linarith
      · rw [if_neg h1, add_zero]
        by_cases h2 : u = t
        · subst h2
          rw [if_pos rfl]
          split
          · rename_i e; subst e
            have := k7 hn hu hy
            linarith
          · split <;> linarith
        · rw [if_neg h2, add_zero]; exact hb'
  -- it is cheaper
  have area : ∀ q (v : ℝ), ∫ x in (0 : ℝ)..v, Mitigation.MAC x L (p.MAC_scaling_factor q) p.MAC_gamma p.MAC_beta =
      Mitigation.AC v L (p.MAC_scaling_factor q) p.MAC_gamma p.MAC_beta := fun q v =>
    (C30_area_under_curve _ _ _ (by linarith) v).symm
  have htot : Spec.totalCost p σ t (a' t) = Spec.totalCost p σ t (fun q => σ.R .relative_abatement t q) + (f ε - f 0) := by
    have e1 : Spec.totalCost p σ t (a' t) = p.sumR fun q => p.baseline_emissions t q *
        Mitigation.AC (σ.R .relative_abatement t q) L (p.MAC_scaling_factor q) p.MAC_gamma p.MAC_beta +
        if q = r then br * (Mitigation.AC (ar + ε / br) L (p.MAC_scaling_factor r) p.MAC_gamma p.MAC_beta -
            Mitigation.AC ar L (p.MAC_scaling_factor r) p.MAC_gamma p.MAC_beta)
        else if q = s then bs * (Mitigation.AC (as - ε / bs) L (p.MAC_scaling_factor s) p.MAC_gamma p.MAC_beta -
            Mitigation.AC as L (p.MAC_scaling_factor s) p.MAC_gamma p.MAC_beta) else 0 := by
      refine sumR_congr (p := p) fun q hq => ?_
      rw [area]
      by_cases hqr : q = r
      · subst hqr; rw [atr, if_pos rfl]; ring
      · by_cases hqs : q = s
        · subst hqs; rw [ats, if_neg hqr, if_pos rfl]; ring
        · rw [ato q hqr hqs, if_neg hqr, if_neg hqs, add_zero]
    have e2 : Spec.totalCost p σ t (fun q => σ.R .relative_abatement t q) = p.sumR fun q => p.baseline_emissions t q *
        Mitigation.AC (σ.R .relative_abatement t q) L (p.MAC_scaling_factor q) p.MAC_gamma p.MAC_beta :=
      sumR_congr (p := p) fun q hq => by rw [area]
    rw [e1, e2, Shift.pair_sum hnd hr hs' hrs]
    simp only [hf, zero_div, add_zero, sub_zero]
    ring
  have hlt' : Spec.totalCost p σ t (a' t) < (p.regions.map fun q => σ.R .area_under_MAC t q).sum := by
    rw [htot, hc t ht]; linarith
  have := C77_no_cheaper_path hadm hmac hs hsr h hA hre' (fun u hu hu0 => ?_) t ht h0
  · linarith
  · by_cases hut : u = t
    · subst hut; exact hlt'.le
    · have e : a' u = fun q => σ.R .relative_abatement u q := funext (at_u u hut)
      rw [e, hc u hu]

/-- **C77.** Without regional limits on emissions, the carbon price is the same in all regions whose abatement is below
its upper bound. -/
theorem C77_equal_prices (hadm : p.Admissible) (hmac : Spec.MacData p) (hs : Spec.SharedEffort md p) (hsr : p.sr < 1)
    (h : Optimal md p σ) (hA : md.objective = .utility → Spec.Affordable p σ) (hnd : p.regions.Nodup)
    (hmin : p.regional_min_level = none) (hi : p.inertia_regional = none)
    (hn : p.non_increasing_emissions_after_2100 = false)
    {t : ℕ} (ht : t ≤ p.tf) (h0 : 0 < t) {r s : String} (hr : r ∈ p.regions) (hs' : s ∈ p.regions)
    (hbr : 0 < p.baseline_emissions t r) (hbs : 0 < p.baseline_emissions t s)
    (har : σ.R .relative_abatement t r < 5 / 2) (has : σ.R .relative_abatement t s < 5 / 2) :
    σ.R .carbonprice t r = σ.R .carbonprice t s := by
  have more : ∀ q, σ.R .relative_abatement t q < 5 / 2 → Spec.CanAbateMore p σ t q := fun q hq =>
    ⟨hq, fun l hl => by (rw [hmin] at hl; cases hl), fun i hi' => by (rw [hi] at hi'; cases hi'),
      fun hn' => by rw [hn] at hn'; cases hn'⟩
  have less : ∀ q, Spec.CanAbateLess p σ t q := fun q =>
    ⟨fun i hi' => by (rw [hi] at hi'; cases hi'), fun hn' => by rw [hn] at hn'; cases hn'⟩
  exact le_antisymm (C77_price_order hadm hmac hs hsr h hA hnd ht h0 hs' hr hbs hbr (more s has) (less r))
    (C77_price_order hadm hmac hs hsr h hA hnd ht h0 hr hs' hbr hbs (more r har) (less s))

/-- **C77.** So with trade there is one price, the world carbon price that is reported, and equal abatement in regions
with the same cost level. -/
theorem C77_one_price (hadm : p.Admissible) (hmac : Spec.MacData p) (hs : Spec.SharedEffort md p) (hsr : p.sr < 1)
    (h : Optimal md p σ) (hA : md.objective = .utility → Spec.Affordable p σ) (hnd : p.regions.Nodup)
    (htr : md.trade = .emissiontrade)
    (hmin : p.regional_min_level = none) (hi : p.inertia_regional = none)
    (hn : p.non_increasing_emissions_after_2100 = false)
    {t : ℕ} (ht : t ≤ p.tf) (h0 : 0 < t) (hb : ∀ r ∈ p.regions, 0 < p.baseline_emissions t r)
    (ha : ∀ r ∈ p.regions, σ.R .relative_abatement t r < 5 / 2) {r : String} (hr : r ∈ p.regions) :
    σ.R .carbonprice t r = σ.G .global_carbonprice t ∧
    ∀ s ∈ p.regions, p.MAC_scaling_factor s = p.MAC_scaling_factor r →
      σ.R .relative_abatement t s = σ.R .relative_abatement t r := by
  have eq := fun {q s} (hq : q ∈ p.regions) (hs' : s ∈ p.regions) =>
    C77_equal_prices hadm hmac hs hsr h hA hnd hmin hi hn ht h0 hq hs' (hb q hq) (hb s hs') (ha q hq) (ha s hs')
  constructor
  · obtain ⟨hne, e⟩ := (h.1.tradeEqs htr).price t ht
    have e1 : (p.sumR fun q => σ.R .carbonprice t q * p.population t q) =
        σ.R .carbonprice t r * p.sumR fun q => p.population t q := by
      rw [← sumR_mul_left]
      exact sumR_congr fun q hq => by rw [eq hq hr]
    rw [e, e1, mul_div_cancel_right₀ _ hne]
  · intro s hs' hsc
    have hL := (C31_positive h.1 hmac.lot ht).2.2
    rw [C30_price_determines_abatement h.1 hmac.beta_pos hmac.gamma_pos ht hs' (hmac.scaling_pos s hs') hL,
      C30_price_determines_abatement h.1 hmac.beta_pos hmac.gamma_pos ht hr (hmac.scaling_pos r hr) hL, hsc, eq hs' hr]

end Mimosa
