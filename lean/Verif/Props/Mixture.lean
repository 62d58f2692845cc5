import Verif.Lib.Convexity
import Verif.Props.BindingExamples

/-!
# C84: without damages, feasible policies can be mixed and the optimum is unique
-/

namespace Mimosa
variable {md : Modules} {p : Params} {σ τ : Env}

/-- The setting of C84: no transfers, trade or effort sharing, exogenous baseline, no damages, an ordinary abatement
cost curve with exponent above 1, and learning by doing that is slow compared to it (the default learning rate is 0.82,
the bound with the default exponent 3 is 0.5). -/
structure Spec.ConvexSetting (md : Modules) (p : Params) : Prop where
  policy : Spec.PlainPolicy md p
  no_damages : md.damage = .nodamage
  exogenous : p.use_carbon_intensity_for_baseline = false
  mac : Spec.MacData p
  beta : 1 < p.MAC_beta
  rate_le : p.LBD_rate ≤ 1
  rate_ge : (2 : ℝ) ^ (-((p.MAC_beta - 1) / 2)) ≤ p.LBD_rate
  trapz : p.cumulative_emissions_trapz = true
  T0_nonneg : 0 ≤ p.T0
  TCRE_nonneg : 0 ≤ p.TCRE
  melt : ∀ t ≤ p.tf, 0.0008 * p.dt * (Spec.pathTemperature p (fun _ _ => 0) t + 1) ≤ 0.26 ∧
    p.dt * (1.11860082 * Spec.pathTemperature p (fun _ _ => 0) t + 0.6) ≤ 7300

theorem Spec.ConvexSetting.log (h : Spec.ConvexSetting md p) (h0 : 0 < p.LBD_rate) :
    p.log_LBD_rate ≤ 0 ∧ -p.log_LBD_rate ≤ (p.MAC_beta - 1) / 2 := by
  have l2 : 0 < Real.log 2 := Real.log_pos (by norm_num)
  unfold Params.log_LBD_rate
  constructor
  · exact div_nonpos_of_nonpos_of_nonneg (Real.log_nonpos h0.le h.rate_le) l2.le
  · rw [neg_le, le_div_iff₀ l2, ← Real.log_rpow (by norm_num)]
    exact Real.log_le_log (Real.rpow_pos_of_pos (by norm_num) _) h.rate_ge

namespace Mixed

/-- `l` parts of the abatement of `σ` and `1 - l` parts of that of `τ`. -/
noncomputable def x (l : ℝ) (σ τ : Env) : Drivers :=
  ⟨fun t r => if t = 0 then 0 else l * σ.R .relative_abatement t r + (1 - l) * τ.R .relative_abatement t r,
    fun _ _ => 0, fun _ _ => 0, fun _ => 0, none⟩

section
variable (h : Solution md p σ) (h' : Solution md p τ) (hex : p.use_carbon_intensity_for_baseline = false) {l : ℝ}
include h h' hex

theorem em_eq {t : ℕ} (ht : t ≤ p.tf) {r : String} (hr : r ∈ p.regions) :
    (x l σ τ).em p t r = l * σ.R .regional_emissions t r + (1 - l) * τ.R .regional_emissions t r := by
  show (1 - (if t = 0 then 0 else _)) * p.baseline_emissions t r = _
  rcases Nat.eq_zero_or_pos t with rfl | h0
  · rw [(C32_emissions h).1 r hr, (C32_emissions h').1 r hr]; simp; ring
  · rw [C23_abated_baseline h ht h0 hr, (C23_baseline h ht hr).1 hex, C23_abated_baseline h' ht h0 hr,
      (C23_baseline h' ht hr).1 hex, if_neg (by omega)]; ring

theorem gE_eq {t : ℕ} (ht : t ≤ p.tf) :
    (x l σ τ).gE p t = l * σ.G .global_emissions t + (1 - l) * τ.G .global_emissions t := by
  rw [C23_global_is_sum h ht, C23_global_is_sum h' ht]
  show p.sumR (fun r => (x l σ τ).em p t r) = l * p.sumR _ + (1 - l) * p.sumR _
  rw [← sumR_mul_left, ← sumR_mul_left, ← sumR_add]
  exact sumR_congr fun r hr => em_eq h h' hex ht hr

theorem cum_eq {t : ℕ} (ht : t ≤ p.tf) : (x l σ τ).cum p t =
    l * σ.G .cumulative_emissions t + (1 - l) * τ.G .cumulative_emissions t := by
  induction t with
  | zero => rw [h.eqs.emissions.cumulative_init, h'.eqs.emissions.cumulative_init]; simp [Drivers.cum]
  | succ t ih =>
    rw [h.eqs.emissions.cumulative t ht, h'.eqs.emissions.cumulative t ht, Drivers.cum, ih (by omega),
      gE_eq h h' hex ht, gE_eq h h' hex (t := t) (Nat.le_of_succ_le ht)]
    split <;> ring

theorem temp_eq {t : ℕ} (ht : t ≤ p.tf) : (x l σ τ).temp p t =
    l * σ.G .temperature t + (1 - l) * τ.G .temperature t := by
  rw [h.eqs.emissions.temperature t ht, h'.eqs.emissions.temperature t ht, Drivers.temp, cum_eq h h' hex ht]; ring

/-- Price and costs of the mixture. -/
theorem price_le (hadm : p.Admissible) (hc : Spec.ConvexSetting md p) (h0 : 0 < l) (h1 : l < 1) {t : ℕ} (ht : t ≤ p.tf)
    {r : String} (hr : r ∈ p.regions) :
    0 ≤ (x l σ τ).price p t r ∧
    (x l σ τ).price p t r ≤ l * σ.R .carbonprice t r + (1 - l) * τ.R .carbonprice t r ∧
    0 ≤ (x l σ τ).area p t r ∧
    (x l σ τ).area p t r ≤ l * σ.R .area_under_MAC t r + (1 - l) * τ.R .area_under_MAC t r ∧
    (0 < p.baseline_emissions t r → σ.R .relative_abatement t r ≠ τ.R .relative_abatement t r →
      (x l σ τ).area p t r < l * σ.R .area_under_MAC t r + (1 - l) * τ.R .area_under_MAC t r) := by
  have hmac := hc.mac
  have ea : (x l σ τ).a t r = l * σ.R .relative_abatement t r + (1 - l) * τ.R .relative_abatement t r := by
    show (if t = 0 then 0 else _) = _
    rcases Nat.eq_zero_or_pos t with rfl | hpos
    · rw [(C32_no_abatement h hmac hr).1, (C32_no_abatement h' hmac hr).1]; simp
    · rw [if_neg (by omega)]
  have l1 : 0 < 1 - l := by linarith
  have ha := (h.abatement_bounds ht hr).1
  have ha' := (h'.abatement_bounds ht hr).1
  have hlog := hc.log hadm.lbd_pos
  have hβ := hc.beta
  have bas := hc.policy.baseline t ht r hr
  set k := -p.log_LBD_rate with hk
  have hk0 : 0 ≤ k := by linarith [hlog.1]
  set X := (p.cumulative_global_baseline_emissions t - σ.G .cumulative_emissions t) / p.LBD_scaling + 1 with hX
  set Y := (p.cumulative_global_baseline_emissions t - τ.G .cumulative_emissions t) / p.LBD_scaling + 1 with hY
  have ge : ∀ {ρ : Env}, Solution md p ρ →
      0 ≤ (p.cumulative_global_baseline_emissions t - ρ.G .cumulative_emissions t) / p.LBD_scaling := fun hρ =>
    div_nonneg (by
      rw [← Scaled.baseline_cum hc.trapz]
      linarith [Scaled.cum_le hρ hex hadm.dt_pos hc.policy.baseline ht]) hadm.lbd_scaling.le
  have hX1 : 1 / 10 ≤ X := by linarith [ge h]
  have hY1 : 1 / 10 ≤ Y := by linarith [ge h']
  have hZ : (p.cumulative_global_baseline_emissions t - (x l σ τ).cum p t) / p.LBD_scaling + 1 = l * X + (1 - l) * Y := by
    rw [cum_eq h h' hex ht, hX, hY]; ring
  have lot : 0 < Drivers.lot p t := one_div_pos.2 (Real.rpow_pos_of_pos hadm.lot _)
  have hkk : p.log_LBD_rate = -k := by rw [hk]; ring
  have el : (x l σ τ).learn p t = soft_min (l * X + (1 - l) * Y) 1 ^ (-k) * Drivers.lot p t := by
    rw [← hkk]
    show soft_min ((p.cumulative_global_baseline_emissions t - (x l σ τ).cum p t) / p.LBD_scaling + 1) 1 ^
      p.log_LBD_rate * _ = _
    rw [hZ]
  have e1 : σ.G .learning_factor t = soft_min X 1 ^ (-k) * Drivers.lot p t := by
    rw [← hkk]
    have m := h.eqs.mitigation
    rw [m.learning t ht, (m.lbd t ht).2, (m.lot t ht).2.2]; rfl
  have e2 : τ.G .learning_factor t = soft_min Y 1 ^ (-k) * Drivers.lot p t := by
    rw [← hkk]
    have m := h'.eqs.mitigation
    rw [m.learning t ht, (m.lbd t ht).2, (m.lot t ht).2.2]; rfl
  have c0 : 0 < Drivers.lot p t * (p.MAC_scaling_factor r * p.MAC_gamma) :=
    mul_pos lot (mul_pos (hmac.scaling_pos r hr) hmac.gamma_pos)
  have z0 : 0 < soft_min (l * X + (1 - l) * Y) 1 ^ (-k) := Real.rpow_pos_of_pos (soft_min_pos_one _) _
  have a0 : 0 ≤ l * σ.R .relative_abatement t r + (1 - l) * τ.R .relative_abatement t r :=
    add_nonneg (mul_nonneg h0.le ha) (mul_nonneg l1.le ha')
  have cvx := fun q (hq : p.MAC_beta ≤ q) => learning_convex (q := q) (k := k) (by linarith) hk0 (by linarith [hlog.2])
    ha ha' hX1 hY1 h0 l1 (by ring)
  have ep : (x l σ τ).price p t r = Drivers.lot p t * (p.MAC_scaling_factor r * p.MAC_gamma) *
      (soft_min (l * X + (1 - l) * Y) 1 ^ (-k) *
        (l * σ.R .relative_abatement t r + (1 - l) * τ.R .relative_abatement t r) ^ p.MAC_beta) := by
    show (x l σ τ).learn p t * p.MAC_scaling_factor r * p.MAC_gamma * (x l σ τ).a t r ^ p.MAC_beta = _
    rw [el, ea]; ring
  have ear : (x l σ τ).area p t r = Drivers.lot p t * (p.MAC_scaling_factor r * p.MAC_gamma) / (p.MAC_beta + 1) *
      p.baseline_emissions t r * (soft_min (l * X + (1 - l) * Y) 1 ^ (-k) *
        (l * σ.R .relative_abatement t r + (1 - l) * τ.R .relative_abatement t r) ^ (p.MAC_beta + 1)) := by
    show (x l σ τ).learn p t * p.MAC_scaling_factor r * p.MAC_gamma * (x l σ τ).a t r ^ (p.MAC_beta + 1) / (p.MAC_beta + 1) *
      p.baseline_emissions t r = _
    rw [el, ea]; ring
  have pσ : σ.R .carbonprice t r = Drivers.lot p t * (p.MAC_scaling_factor r * p.MAC_gamma) *
      (soft_min X 1 ^ (-k) * σ.R .relative_abatement t r ^ p.MAC_beta) := by
    rw [(h.eqs.mitigation.carbonprice t ht r hr).2]; unfold macVal; rw [e1]; ring
  have pτ : τ.R .carbonprice t r = Drivers.lot p t * (p.MAC_scaling_factor r * p.MAC_gamma) *
      (soft_min Y 1 ^ (-k) * τ.R .relative_abatement t r ^ p.MAC_beta) := by
    rw [(h'.eqs.mitigation.carbonprice t ht r hr).2]; unfold macVal; rw [e2]; ring
  have aσ : σ.R .area_under_MAC t r = Drivers.lot p t * (p.MAC_scaling_factor r * p.MAC_gamma) / (p.MAC_beta + 1) *
      p.baseline_emissions t r * (soft_min X 1 ^ (-k) * σ.R .relative_abatement t r ^ (p.MAC_beta + 1)) := by
    rw [(h.eqs.mitigation.area t ht r hr).2, (C23_baseline h ht hr).1 hex]; unfold acVal; rw [e1]; ring
  have aτ : τ.R .area_under_MAC t r = Drivers.lot p t * (p.MAC_scaling_factor r * p.MAC_gamma) / (p.MAC_beta + 1) *
      p.baseline_emissions t r * (soft_min Y 1 ^ (-k) * τ.R .relative_abatement t r ^ (p.MAC_beta + 1)) := by
    rw [(h'.eqs.mitigation.area t ht r hr).2, (C23_baseline h' ht hr).1 hex]; unfold acVal; rw [e2]; ring
  have d0 : 0 < Drivers.lot p t * (p.MAC_scaling_factor r * p.MAC_gamma) / (p.MAC_beta + 1) := div_pos c0 (by linarith)
  rw [ep, ear, pσ, pτ, aσ, aτ]
  have v1 := cvx p.MAC_beta le_rfl
  have v2 := cvx (p.MAC_beta + 1) (by linarith)
  generalize Drivers.lot p t * (p.MAC_scaling_factor r * p.MAC_gamma) / (p.MAC_beta + 1) = D at d0 ⊢
  generalize Drivers.lot p t * (p.MAC_scaling_factor r * p.MAC_gamma) = C at c0 ⊢
  refine ⟨mul_nonneg c0.le (mul_nonneg z0.le (Real.rpow_nonneg a0 _)), ?_,
    mul_nonneg (mul_nonneg d0.le bas) (mul_nonneg z0.le (Real.rpow_nonneg a0 _)), ?_, fun hb hne => ?_⟩
  · have := mul_le_mul_of_nonneg_left v1.1 c0.le
    linarith
  · have := mul_le_mul_of_nonneg_left v2.1 (mul_nonneg d0.le bas)
    linarith
  · have := mul_lt_mul_of_pos_left (v2.2 hne) (mul_pos d0 hb)
    linarith

end

section
variable (hadm : p.Admissible) (hc : Spec.ConvexSetting md p) (h : Solution md p σ) (h' : Solution md p τ) {l : ℝ}
  (h0 : 0 < l) (h1 : l < 1)
include hadm hc h h' h0 h1

omit hadm h h' h0 h1 in
theorem cost_eq (t : ℕ) (r : String) : (x l σ τ).cost md p t r = (x l σ τ).area p t r := by
  unfold Drivers.cost Drivers.balance
  rw [hc.policy.trade]; exact add_zero _

/-- The mixture is possible. -/
theorem ok : (x l σ τ).Ok md p := by
  have hex := hc.exogenous
  have hp := hc.policy
  have e := h.eqs
  have e' := h'.eqs
  have l1 : 0 < 1 - l := by linarith
  have pr := fun {t} (ht : t ≤ p.tf) {r} (hr : r ∈ p.regions) => price_le h h' hex hadm hc h0 h1 ht hr
  have hcum0 : ∀ t ≤ p.tf, 0 ≤ (x l σ τ).cum p t := fun t ht => by
    rw [cum_eq h h' hex ht]
    exact add_nonneg (mul_nonneg h0.le (e.emissions.cumulative_nonneg t ht))
      (mul_nonneg l1.le (e'.emissions.cumulative_nonneg t ht))
  have hcumle : ∀ t ≤ p.tf, (x l σ τ).cum p t ≤ Spec.pathCumulative p (fun _ _ => 0) t := fun t ht => by
    rw [cum_eq h h' hex ht]
    have i1 := mul_le_mul_of_nonneg_left (Scaled.cum_le h hex hadm.dt_pos hp.baseline ht) h0.le
    have i2 := mul_le_mul_of_nonneg_left (Scaled.cum_le h' hex hadm.dt_pos hp.baseline ht) l1.le
    linarith
  have htemp0 : ∀ t ≤ p.tf, 0 ≤ (x l σ τ).temp p t := fun t ht => by
    unfold Drivers.temp; exact add_nonneg hc.T0_nonneg (mul_nonneg hc.TCRE_nonneg (hcum0 t ht))
  have htemple : ∀ t ≤ p.tf, (x l σ τ).temp p t ≤ Spec.pathTemperature p (fun _ _ => 0) t := fun t ht => by
    unfold Drivers.temp Spec.pathTemperature
    have := mul_le_mul_of_nonneg_left (hcumle t ht) hc.TCRE_nonneg
    linarith
  have hdt := hadm.dt_pos
  have hsl := Drivers.slr_ranges (p := p) (x := x l σ τ) hdt.le hc.T0_nonneg htemp0
    (fun t ht => le_trans (mul_le_mul_of_nonneg_left (by linarith [htemple t ht]) (by positivity)) (hc.melt t ht).1)
    (fun t ht => le_trans (mul_le_mul_of_nonneg_left (by linarith [htemple t ht]) hdt.le) (hc.melt t ht).2)
  have mixle : ∀ {u v w : ℝ}, u ≤ w → v ≤ w → l * u + (1 - l) * v ≤ w := fun hu hv => by
    have i1 := mul_le_mul_of_nonneg_left hu h0.le
    have i2 := mul_le_mul_of_nonneg_left hv l1.le
    linarith
  have lemix : ∀ {u v w : ℝ}, w ≤ u → w ≤ v → w ≤ l * u + (1 - l) * v := fun hu hv => by
    have i1 := mul_le_mul_of_nonneg_left hu h0.le
    have i2 := mul_le_mul_of_nonneg_left hv l1.le
    linarith
  have a0 : ∀ t ≤ p.tf, ∀ r ∈ p.regions, 0 ≤ (x l σ τ).a t r ∧ (x l σ τ).a t r ≤ 5 / 2 := by
    intro t ht r hr
    show 0 ≤ (if t = 0 then 0 else _) ∧ (if t = 0 then 0 else _) ≤ _
    split
    · norm_num
    · have := h.abatement_bounds ht hr
      have i := h'.abatement_bounds ht hr
      exact ⟨lemix this.1 i.1, mixle this.2 i.2⟩
  constructor
  case a_init => intro r hr; simp [x]
  case a_nonneg => exact fun t ht r hr => (a0 t ht r hr).1
  case a_le => exact fun t ht r hr => (a0 t ht r hr).2
  case exogenous => intro _; rfl
  case endogenous => intro h; rw [hex] at h; cases h
  case trade => exact h.trade_ne
  case bal_sum => intro hh; rw [hp.trade] at hh; cases hh
  case tr_init => intro hh; rw [hp.transfer] at hh; cases hh
  case tr_sum => intro hh; rw [hp.transfer] at hh; cases hh
  case tr_max => intro hh; rw [hp.transfer] at hh; cases hh
  case target =>
    intro t ht T hT hy
    rw [temp_eq h h' hex ht]
    exact mixle (e.emissions.temperature_target t ht T hT hy) (e'.emissions.temperature_target t ht T hT hy)
  case reversible => intro _; exact hp.reversible
  case budget =>
    intro t ht b hb hy
    rw [cum_eq h h' hex ht]
    have i1 := e.emissions.budget t ht b hb hy
    have i2 := e'.emissions.budget t ht b hb hy
    rw [if_neg (not_lt.2 hp.reversible)] at i1 i2
    exact mixle (by linarith) (by linarith)
  case cum_nonneg => exact hcum0
  case global_inertia =>
    intro t ht i hi
    have i1 := mul_le_mul_of_nonneg_left (e.emissions.global_inertia t ht i hi) h0.le
    have i2 := mul_le_mul_of_nonneg_left (e'.emissions.global_inertia t ht i hi) l1.le
    rw [gE_eq h h' hex ht, gE_eq h h' hex (t := t) (Nat.le_of_succ_le ht)]
    unfold Params.sumR at *
    linarith
  case regional_inertia =>
    intro t ht r hr i hi
    have i1 := mul_le_mul_of_nonneg_left (e.emissions.regional_inertia t ht r hr i hi) h0.le
    have i2 := mul_le_mul_of_nonneg_left (e'.emissions.regional_inertia t ht r hr i hi) l1.le
    rw [em_eq h h' hex ht hr, em_eq h h' hex (t := t) (Nat.le_of_succ_le ht) hr]
    linarith
  case global_min =>
    intro t ht m hl
    rw [gE_eq h h' hex ht]
    exact lemix (e.emissions.global_min_level t ht m hl) (e'.emissions.global_min_level t ht m hl)
  case regional_min =>
    intro t ht r hr m hl
    rw [em_eq h h' hex ht hr]
    exact lemix (e.emissions.regional_min_level t ht r hr m hl) (e'.emissions.regional_min_level t ht r hr m hl)
  case start => exact hp.start
  case non_increasing =>
    intro t ht r hr hy hn
    have i1 := e.emissions.non_increasing (t + 1) ht r hr (by rw [cast_succ_sub_one]; exact hy) hn
    have i2 := e'.emissions.non_increasing (t + 1) ht r hr (by rw [cast_succ_sub_one]; exact hy) hn
    rw [cast_succ_sub_one] at i1 i2
    rw [em_eq h h' hex ht hr, em_eq h h' hex (t := t) (Nat.le_of_succ_le ht) hr]
    exact add_le_add (mul_le_mul_of_nonneg_left (sub_nonpos.1 i1) h0.le)
      (mul_le_mul_of_nonneg_left (sub_nonpos.1 i2) l1.le)
  case net_zero =>
    intro t ht hy hn hb
    rw [gE_eq h h' hex ht]
    exact mixle (e.emissions.net_zero t ht hy hn hb) (e'.emissions.net_zero t ht hy hn hb)
  case slr_nonneg =>
    intro t ht
    have := hsl t ht
    exact ⟨this.1, by linarith [this.2.1.1], by linarith [this.2.2.1]⟩
  case forms => intro hd; rw [hc.no_damages] at hd; cases hd
  case damS_bounds => intro hd; rw [hc.no_damages] at hd; cases hd
  case price_nonneg => exact fun t ht r hr => (pr ht hr).1
  case price_le =>
    exact fun t ht r hr => (pr ht hr).2.1.trans
      (mixle (h.price_bounds ht hr).2 (h'.price_bounds ht hr).2)
  case rel_costs_min =>
    intro t ht r hr
    rw [cost_eq hc]
    have hg := (x l σ τ).gross_pos md p hadm ht hr
    have := div_nonneg (pr ht hr).2.2.1 hg.le
    have := hp.cost_floor
    split <;> linarith
  case effort =>
    have ne1 : "noregime" ≠ "equal_mitigation_costs" := by decide
    have ne2 : "noregime" ≠ "equal_total_costs" := by decide
    have ne3 : "noregime" ≠ "per_cap_convergence" := by decide
    constructor
    · intro t ht r hr he; exact absurd (hp.regime.symm.trans he) ne1
    · intro t ht r hr he; exact absurd (hp.regime.symm.trans he) ne2
    · intro t ht r hr he; exact absurd (hp.regime.symm.trans he) ne3
  case effort_scope =>
    intro he
    exact absurd (hp.regime.symm.trans he) (by decide)

/-- The capital stock of the mixture is at least the mixture of the stocks. -/
theorem capital (hα : p.alpha ≤ 9 / 10) (hK : ∀ t ≤ p.tf, ∀ r ∈ p.regions, 1 ≤ σ.R .capital_stock t r)
    (hK' : ∀ t ≤ p.tf, ∀ r ∈ p.regions, 1 ≤ τ.R .capital_stock t r)
    (hB : Spec.CostsBelowCapital p σ) (hB' : Spec.CostsBelowCapital p τ) {t : ℕ} (ht : t ≤ p.tf) {r : String}
    (hr : r ∈ p.regions) :
    l * σ.R .capital_stock t r + (1 - l) * τ.R .capital_stock t r ≤ (x l σ τ).K md p t r := by
  have hex := hc.exogenous
  have l1 : 0 < 1 - l := by linarith
  induction t with
  | zero =>
    rw [h.eqs.economy.capital_init r hr, h'.eqs.economy.capital_init r hr]
    have : (x l σ τ).K md p 0 r = p.init_capitalstock_factor r * p.baseline_GDP 0 r := rfl
    rw [this]; linarith
  | succ t ih =>
    have hle' := ih (by omega)
    have hA : (0 : ℝ) < 2 - (1 - p.dk) ^ p.dt := by linarith [dk_pow_le hadm]
    have e := h.capital_eq hadm ht hr
    have n := NoAbate.net_eq (.inl hc.no_damages) h ht hr
    have g := (h.eqs.economy.gross t ht r hr).2
    have f := h'.capital_eq hadm ht hr
    have n' := NoAbate.net_eq (.inl hc.no_damages) h' ht hr
    have g' := (h'.eqs.economy.gross t ht r hr).2
    have e' := (x l σ τ).K_step md p hadm rfl t r
    have hds : 0 ≤ p.dt * p.sr := mul_nonneg hadm.dt_pos.le hadm.sr_nonneg
    have cost := (price_le h h' hex hadm hc h0 h1 ht hr).2.2.2.1
    rw [← cost_eq hc, ← C33_costs_notrade h hc.policy.trade ht hr, ← C33_costs_notrade h' hc.policy.trade ht hr] at cost
    have hcc := mul_le_mul_of_nonneg_left cost hds
    have hd : (x l σ τ).dam md p (t + 1) r = 0 := by unfold Drivers.dam; rw [hc.no_damages]
    unfold Drivers.CapStep Drivers.netOf Drivers.grossOf Drivers.transfer at e'
    rw [hc.policy.transfer, hd] at e'
    simp only [sub_zero, ite_self] at e'
    set F := get_TFP_value p (t + 1) r * p.population (t + 1) r ^ (1 - p.alpha) with hFd
    have hF : 0 < F := mul_pos (tfp_pos hadm ht hr) (Real.rpow_pos_of_pos (hadm.pop_pos (t + 1) ht r hr) _)
    have conc := softmin_pow_ten hadm.alpha_nonneg hα (hK (t + 1) ht r hr) (hK' (t + 1) ht r hr) h0.le l1.le (by ring)
    set k := l * σ.R .capital_stock (t + 1) r + (1 - l) * τ.R .capital_stock (t + 1) r with hk
    set s := soft_min k 10 ^ p.alpha with hs
    set m := l * soft_min (σ.R .capital_stock (t + 1) r) 10 ^ p.alpha +
      (1 - l) * soft_min (τ.R .capital_stock (t + 1) r) 10 ^ p.alpha with hm
    have hs0 : 0 < s := Real.rpow_pos_of_pos (soft_min_pos_ten _) _
    refine capital_le (A := 2 - (1 - p.dk) ^ p.dt)
      (B := l * (σ.R .capital_stock t r - p.dt * p.sr * σ.R .mitigation_costs (t + 1) r) +
        (1 - l) * (τ.R .capital_stock t r - p.dt * p.sr * τ.R .mitigation_costs (t + 1) r))
      (B' := (x l σ τ).K md p t r - p.dt * p.sr * (x l σ τ).cost md p (t + 1) r)
      (C := p.dt * p.sr * F * (m / s)) (C' := p.dt * p.sr * F)
      hA ?_ hadm.alpha_nonneg hadm.alpha_lt (by linarith) ?_ ?_ ?_
    · have i1 := hB t ht r hr
      have i2 := hB' t ht r hr
      exact add_pos (mul_pos h0 (by linarith)) (mul_pos l1 (by linarith))
    · exact mul_le_of_le_one_right (mul_nonneg hds hF.le) ((div_le_one hs0).2 conc)
    · have e3 : p.dt * p.sr * F * (m / s) * s = p.dt * p.sr * F * m := by field_simp
      rw [e3, hm, hk, mul_add, mul_left_comm, e, mul_left_comm _ (1 - l), f, n, g, n', g']
      ring
    · have hdt := hadm.dt_pos.ne'
      have e2 : p.dt * (((1 - p.dk) ^ p.dt - 1) / p.dt * (x l σ τ).K md p (t + 1) r) =
          ((1 - p.dk) ^ p.dt - 1) * (x l σ τ).K md p (t + 1) r := by field_simp
      rw [mul_add, e2] at e'
      linarith

/-- … and so is its product. -/
theorem gross (hα : p.alpha ≤ 9 / 10) (hK : ∀ t ≤ p.tf, ∀ r ∈ p.regions, 1 ≤ σ.R .capital_stock t r)
    (hK' : ∀ t ≤ p.tf, ∀ r ∈ p.regions, 1 ≤ τ.R .capital_stock t r)
    (hB : Spec.CostsBelowCapital p σ) (hB' : Spec.CostsBelowCapital p τ) {t : ℕ} (ht : t ≤ p.tf) {r : String}
    (hr : r ∈ p.regions) :
    l * σ.R .GDP_gross t r + (1 - l) * τ.R .GDP_gross t r ≤ (x l σ τ).gross md p t r := by
  have l1 : 0 < 1 - l := by linarith
  unfold Drivers.gross
  cases t with
  | zero => rw [h.eqs.economy.gross_init r hr, h'.eqs.economy.gross_init r hr, if_pos rfl]; linarith
  | succ t =>
    have hKK := capital hadm hc h h' h0 h1 hα hK hK' hB hB' ht hr
    have conc := softmin_pow_ten hadm.alpha_nonneg hα (hK (t + 1) ht r hr) (hK' (t + 1) ht r hr) h0.le l1.le (by ring)
    rw [(h.eqs.economy.gross t ht r hr).2, (h'.eqs.economy.gross t ht r hr).2, if_neg (by omega)]
    unfold Drivers.grossOf
    have hF : 0 < get_TFP_value p (t + 1) r * p.population (t + 1) r ^ (1 - p.alpha) :=
      mul_pos (tfp_pos hadm ht hr) (Real.rpow_pos_of_pos (hadm.pop_pos (t + 1) ht r hr) _)
    have up := conc.trans (Real.rpow_le_rpow (soft_min_pos_ten _).le
      ((soft_min_strictMono (by norm_num)).monotone hKK) hadm.alpha_nonneg)
    have := mul_le_mul_of_nonneg_left up hF.le
    linarith

end
end Mixed

/-! ## Welfare of a mixture -/

/-- Settings with which welfare is concave in consumption and the product in capital (the defaults are an elasticity of
capital of 0.3, an elasticity of marginal utility of 1.001 and an inequality aversion of 0.5). -/
structure Spec.ConcaveWelfare (md : Modules) (p : Params) : Prop where
  alpha : p.alpha ≤ 9 / 10
  elasmu : 0.82 ≤ p.elasmu
  inequality : md.welfare = .inequal_aversion_general →
    1 / 10 ≤ p.inequal_aversion ∧ p.inequal_aversion < 1 ∧ 1 < p.elasmu

/-- No region is too poor: a capital stock of at least one trillion dollar that the savings for one step's abatement costs
do not use up, and consumption of at least a hundred dollars per head (`population` is in billions, money in trillions). -/
structure Spec.Prosperous (p : Params) (σ : Env) : Prop where
  capital : ∀ t ≤ p.tf, ∀ r ∈ p.regions, 1 ≤ σ.R .capital_stock t r
  costs : Spec.CostsBelowCapital p σ
  consumption : ∀ t ≤ p.tf, 0 < t → ∀ r ∈ p.regions, p.population t r / 10 ≤ σ.R .consumption t r

namespace Mixed

/-- Any consumption has a welfare. -/
theorem welfare_env {m : WelfareModule} (w : WelfareEqs p σ m) (c : ℕ → String → ℝ) :
    ∃ μ : Env, WelfareEqs p μ m ∧ ∀ t r, μ.R .consumption t r = c t r := by
  cases m with
  | welfare_loss_minimising =>
    let u : ℕ → String → ℝ := fun t r => (soft_min (c t r / p.population t r) 1 ^ (1 - p.elasmu) - 1) / (1 - p.elasmu)
    refine ⟨⟨fun _ t => p.sumR fun r => p.population t.toNat r * u t.toNat r,
      fun v t r => if v = .utility then u t.toNat r else c t.toNat r⟩, ⟨fun t ht r hr => ?_, fun t ht => ?_⟩, fun t r => ?_⟩
    · exact ⟨(w.1 t ht r hr).1, (w.1 t ht r hr).2.1, rfl⟩
    · rfl
    · rfl
  | cost_minimising =>
    refine ⟨⟨fun _ t => p.sumR (fun r => p.population t.toNat r) *
        ((soft_min (p.sumR (fun r => c t.toNat r) / p.sumR (fun r => p.population t.toNat r)) 1 ^
          (1 - p.elasmu) - 1) / (1 - p.elasmu)),
      fun v t r => if v = .utility then c t.toNat r / p.population t.toNat r else c t.toNat r⟩,
      ⟨fun t ht r hr => ?_, fun t ht => ?_⟩, fun t r => ?_⟩
    · exact ⟨(w.1 t ht r hr).1, rfl⟩
    · exact ⟨(w.2 t ht).1, (w.2 t ht).2.1, rfl⟩
    · rfl
  | inequal_aversion_general =>
    let u : ℕ → String → ℝ := fun t r =>
      p.population t r * soft_min (c t r / p.population t r) 1 ^ (1 - p.inequal_aversion)
    refine ⟨⟨fun _ t => p.sumR (fun r => p.population t.toNat r) *
        (soft_min (p.sumR (fun r => u t.toNat r) / p.sumR (fun r => p.population t.toNat r)) 1 ^
          ((1 - p.elasmu) / (1 - p.inequal_aversion)) / (1 - p.elasmu)),
      fun v t r => if v = .utility then u t.toNat r else c t.toNat r⟩, ⟨fun t ht r hr => ?_, fun t ht => ?_⟩, fun t r => ?_⟩
    · exact ⟨(w.1 t ht r hr).1, rfl⟩
    · exact ⟨(w.2 t ht).1, (w.2 t ht).2.1, (w.2 t ht).2.2.1, rfl⟩
    · rfl

theorem eight_pi : 8 / Real.pi ^ 2 ≤ (0.82 : ℝ) := by
  have := Real.pi_gt_d2
  rw [div_le_iff₀ (by positivity)]
  nlinarith

/-- The welfare of mixed consumption is at least the mixture of the welfares. -/
theorem welfare_mixed {m : WelfareModule} (hne : p.regions ≠ []) (hel : 0.82 ≤ p.elasmu)
    (hia : m = .inequal_aversion_general → 1 / 10 ≤ p.inequal_aversion ∧ p.inequal_aversion < 1 ∧ 1 < p.elasmu)
    {μ : Env} (w : WelfareEqs p σ m) (w' : WelfareEqs p τ m) (w'' : WelfareEqs p μ m) {t : ℕ} (ht : t ≤ p.tf)
    (hpop : ∀ r ∈ p.regions, 0 < p.population t r)
    (hs : ∀ r ∈ p.regions, p.population t r / 10 ≤ σ.R .consumption t r)
    (hs' : ∀ r ∈ p.regions, p.population t r / 10 ≤ τ.R .consumption t r) {l : ℝ} (h0 : 0 < l) (h1 : l < 1)
    (hmix : ∀ r ∈ p.regions, μ.R .consumption t r = l * σ.R .consumption t r + (1 - l) * τ.R .consumption t r) :
    l * σ.G .yearly_welfare t + (1 - l) * τ.G .yearly_welfare t ≤ μ.G .yearly_welfare t := by
  have l1 : 0 < 1 - l := by linarith
  have hL : 0 < p.sumR (fun r => p.population t r) := sumR_pos hne hpop
  have ten : ∀ {c : ℝ} {r : String}, r ∈ p.regions → p.population t r / 10 ≤ c → 1 / 10 ≤ c / p.population t r := by
    intro c r hr hc
    rw [le_div_iff₀ (hpop r hr)]; linarith
  have split : ∀ f g : String → ℝ, l * p.sumR f + (1 - l) * p.sumR g = p.sumR fun r => l * f r + (1 - l) * g r := by
    intro f g
    rw [← sumR_mul_left, ← sumR_mul_left, ← sumR_add]
  have ratio : ∀ {r : String}, r ∈ p.regions → μ.R .consumption t r / p.population t r =
      l * (σ.R .consumption t r / p.population t r) + (1 - l) * (τ.R .consumption t r / p.population t r) := by
    intro r hr
    rw [hmix r hr]; ring
  have he := eight_pi.trans hel
  cases m with
  | welfare_loss_minimising =>
    rw [w.2 t ht, w'.2 t ht, w''.2 t ht, split]
    refine sumR_le fun r hr => ?_
    have hne1 : p.elasmu ≠ 1 := fun h => (w.1 t ht r hr).2.1 (by linarith)
    have c := (utility_concaveOn he hne1).2
      (Set.mem_Ici.2 (by have := ten hr (hs r hr); linarith : (0 : ℝ) ≤ σ.R .consumption t r / p.population t r))
      (Set.mem_Ici.2 (by have := ten hr (hs' r hr); linarith : (0 : ℝ) ≤ τ.R .consumption t r / p.population t r))
      h0.le l1.le (by ring)
    simp only [smul_eq_mul] at c
    rw [(w.1 t ht r hr).2.2, (w'.1 t ht r hr).2.2, (w''.1 t ht r hr).2.2, ratio hr]
    have := mul_le_mul_of_nonneg_left c (hpop r hr).le
    linarith
  | cost_minimising =>
    obtain ⟨-, q, y⟩ := w.2 t ht
    obtain ⟨-, -, y'⟩ := w'.2 t ht
    obtain ⟨-, -, y''⟩ := w''.2 t ht
    have hne1 : p.elasmu ≠ 1 := fun h => q (by linarith)
    have nn : ∀ {ρ : Env}, (∀ r ∈ p.regions, p.population t r / 10 ≤ ρ.R .consumption t r) →
        0 ≤ p.sumR (fun r => ρ.R .consumption t r) / p.sumR fun r => p.population t r := fun hρ =>
      div_nonneg (sumR_nonneg fun r hr => by have := hρ r hr; have := hpop r hr; linarith) hL.le
    have c := (utility_concaveOn he hne1).2 (Set.mem_Ici.2 (nn hs)) (Set.mem_Ici.2 (nn hs')) h0.le l1.le (by ring)
    simp only [smul_eq_mul] at c
    have e : p.sumR (fun r => μ.R .consumption t r) / p.sumR (fun r => p.population t r) =
        l * (p.sumR (fun r => σ.R .consumption t r) / p.sumR fun r => p.population t r) +
        (1 - l) * (p.sumR (fun r => τ.R .consumption t r) / p.sumR fun r => p.population t r) := by
      rw [sumR_congr hmix, ← split]; ring
    rw [y, y', y'', e]
    have := mul_le_mul_of_nonneg_left c hL.le
    linarith
  | inequal_aversion_general =>
    obtain ⟨i0, i1, e1⟩ := hia rfl
    obtain ⟨-, -, -, y⟩ := w.2 t ht
    obtain ⟨-, -, -, y'⟩ := w'.2 t ht
    obtain ⟨-, -, -, y''⟩ := w''.2 t ht
    set ρ := (1 - p.elasmu) / (1 - p.inequal_aversion) with hρ
    have hi : 0 < 1 - p.inequal_aversion := by linarith
    have hρ0 : ρ < 0 := div_neg_of_neg_of_pos (by linarith) hi
    have inner : l * p.sumR (fun r => σ.R .utility t r) + (1 - l) * p.sumR (fun r => τ.R .utility t r) ≤
        p.sumR fun r => μ.R .utility t r := by
      rw [split]
      refine sumR_le fun r hr => ?_
      have c := (softmin_pow_concaveOn hi.le (by linarith)).2 (Set.mem_Ici.2 (ten hr (hs r hr)))
        (Set.mem_Ici.2 (ten hr (hs' r hr))) h0.le l1.le (by ring)
      simp only [smul_eq_mul] at c
      rw [(w.1 t ht r hr).2, (w'.1 t ht r hr).2, (w''.1 t ht r hr).2, ratio hr]
      have := mul_le_mul_of_nonneg_left c (hpop r hr).le
      linarith
    have nn : ∀ {ρ : Env}, WelfareEqs p ρ .inequal_aversion_general →
        0 ≤ p.sumR (fun r => ρ.R .utility t r) / p.sumR fun r => p.population t r := fun hρ =>
      div_nonneg (sumR_nonneg fun r hr => by
        rw [(hρ.1 t ht r hr).2]
        exact mul_nonneg (hpop r hr).le (Real.rpow_nonneg (soft_min_pos_one _).le _)) hL.le
    set a := p.sumR (fun r => σ.R .utility t r) / p.sumR (fun r => p.population t r) with ha
    set b := p.sumR (fun r => τ.R .utility t r) / p.sumR (fun r => p.population t r) with hb
    set d := p.sumR (fun r => μ.R .utility t r) / p.sumR (fun r => p.population t r) with hd
    have hab : l * a + (1 - l) * b ≤ d := by
      rw [ha, hb, hd, ← mul_div_assoc, ← mul_div_assoc, ← add_div]
      exact div_le_div_of_nonneg_right inner hL.le
    have c := (utility_concaveOn (e := 1 - ρ) (eight_pi.trans (by linarith)) (by linarith)).2
      (Set.mem_Ici.2 (nn w)) (Set.mem_Ici.2 (nn w')) h0.le l1.le (by ring)
    simp only [smul_eq_mul, sub_sub_cancel] at c
    have mono := (C44_utility_strictMono (e := 1 - ρ) (by linarith)).monotone hab
    simp only [Spec.utility, sub_sub_cancel] at mono
    have c2 := c.trans mono
    have form : ∀ z : ℝ, soft_min z 1 ^ ρ / (1 - p.elasmu) =
        ((soft_min z 1 ^ ρ - 1) / ρ + 1 / ρ) / (1 - p.inequal_aversion) := by
      intro z
      have e2 : 1 - p.elasmu = ρ * (1 - p.inequal_aversion) := by rw [hρ]; field_simp
      rw [e2]
      have := hρ0.ne
      field_simp
      ring
    rw [y, y', y'', form, form, form]
    have c3 := mul_le_mul_of_nonneg_left (div_le_div_of_nonneg_right (add_le_add_left c2 (1 / ρ)) hi.le) hL.le
    refine le_trans (le_of_eq ?_) c3
    ring

end Mixed

/-! ## The results -/

namespace Mixed
section
variable (hadm : p.Admissible) (hc : Spec.ConvexSetting md p) (h : Solution md p σ) (h' : Solution md p τ) {l : ℝ}
  (h0 : 0 < l) (h1 : l < 1)
include hadm hc h h' h0 h1

/-- The mixture as a solution. -/
theorem sol : ∃ ρ, Solution md p ρ ∧
    (∀ t ≤ p.tf, ∀ r ∈ p.regions, ρ.R .relative_abatement t r = (x l σ τ).a t r) ∧
    (∀ t ≤ p.tf, ∀ r ∈ p.regions, ρ.R .regional_emissions t r = (x l σ τ).em p t r) ∧
    (∀ t ≤ p.tf, ρ.G .global_emissions t = (x l σ τ).gE p t) ∧
    (∀ t ≤ p.tf, ρ.G .cumulative_emissions t = (x l σ τ).cum p t) ∧
    (∀ t ≤ p.tf, ρ.G .temperature t = (x l σ τ).temp p t) ∧
    (∀ t ≤ p.tf, ∀ r ∈ p.regions, ρ.R .carbonprice t r = (x l σ τ).price p t r) ∧
    (∀ t ≤ p.tf, ∀ r ∈ p.regions, ρ.R .mitigation_costs t r = (x l σ τ).area p t r) ∧
    (∀ t ≤ p.tf, ∀ r ∈ p.regions, ρ.R .capital_stock t r = (x l σ τ).K md p t r) ∧
    (∀ t ≤ p.tf, ∀ r ∈ p.regions, ρ.R .GDP_gross t r = (x l σ τ).gross md p t r) := by
  refine ⟨(x l σ τ).env md p, Drivers.build_solution hadm (ok hadm hc h h' h0 h1), ?_, ?_, ?_, ?_, ?_, ?_, ?_, ?_, ?_⟩
  · intro t ht r hr; rfl
  · intro t ht r hr; rfl
  · intro t ht; rfl
  · intro t ht; rfl
  · intro t ht; rfl
  · intro t ht r hr; rfl
  · intro t ht r hr
    exact cost_eq hc t r
  · intro t ht r hr; rfl
  · intro t ht r hr; rfl

end
end Mixed

/-- **C84.** Without damages any two feasible policies can be mixed: for every weight there is a solution whose abatement,
emissions, cumulative emissions and temperature are the weighted means of those of the two, and whose abatement costs are
at most the weighted mean — less wherever the two abate differently. -/
theorem C84_mixture (hadm : p.Admissible) (hc : Spec.ConvexSetting md p) (h : Solution md p σ) (h' : Solution md p τ)
    {l : ℝ} (h0 : 0 < l) (h1 : l < 1) :
    ∃ ρ, Solution md p ρ ∧ ∀ t ≤ p.tf,
      ρ.G .global_emissions t = l * σ.G .global_emissions t + (1 - l) * τ.G .global_emissions t ∧
      ρ.G .cumulative_emissions t = l * σ.G .cumulative_emissions t + (1 - l) * τ.G .cumulative_emissions t ∧
      ρ.G .temperature t = l * σ.G .temperature t + (1 - l) * τ.G .temperature t ∧
      ∀ r ∈ p.regions,
        ρ.R .relative_abatement t r = l * σ.R .relative_abatement t r + (1 - l) * τ.R .relative_abatement t r ∧
        ρ.R .regional_emissions t r = l * σ.R .regional_emissions t r + (1 - l) * τ.R .regional_emissions t r ∧
        ρ.R .carbonprice t r ≤ l * σ.R .carbonprice t r + (1 - l) * τ.R .carbonprice t r ∧
        ρ.R .mitigation_costs t r ≤ l * σ.R .mitigation_costs t r + (1 - l) * τ.R .mitigation_costs t r ∧
        (0 < p.baseline_emissions t r → σ.R .relative_abatement t r ≠ τ.R .relative_abatement t r →
          ρ.R .mitigation_costs t r < l * σ.R .mitigation_costs t r + (1 - l) * τ.R .mitigation_costs t r) := by
  have hex := hc.exogenous
  obtain ⟨ρ, hρ, q1, q2, q3, q4, q5, q6, q7, -, -⟩ := Mixed.sol hadm hc h h' h0 h1
  refine ⟨ρ, hρ, fun t ht => ⟨?_, ?_, ?_, fun r hr => ?_⟩⟩
  · rw [q3 t ht, Mixed.gE_eq h h' hex ht]
  · rw [q4 t ht, Mixed.cum_eq h h' hex ht]
  · rw [q5 t ht, Mixed.temp_eq h h' hex ht]
  obtain ⟨-, c1, -, c2, c3⟩ := Mixed.price_le h h' hex hadm hc h0 h1 ht hr
  rw [C33_costs_notrade h hc.policy.trade ht hr, C33_costs_notrade h' hc.policy.trade ht hr, q2 t ht r hr, q6 t ht r hr,
    q7 t ht r hr]
  refine ⟨?_, Mixed.em_eq h h' hex ht hr, c1, c2, c3⟩
  rw [q1 t ht r hr]
  show (if t = 0 then 0 else _) = _
  rcases Nat.eq_zero_or_pos t with rfl | hpos
  · rw [(C32_no_abatement h hc.mac hr).1, (C32_no_abatement h' hc.mac hr).1]; simp
  · rw [if_neg (by omega)]

/-- The objective does not exclude mixing: with welfare as the objective it is concave and both solutions are prosperous. -/
def Spec.Mixable (md : Modules) (p : Params) (σ : Env) : Prop :=
  md.objective = .utility → Spec.ConcaveWelfare md p ∧ Spec.Prosperous p σ

/-- **C84.** … and a mixture is better than the mixture of the objective's values, strictly if the two policies
differ somewhere. -/
theorem C84_mixture_better (hadm : p.Admissible) (hc : Spec.ConvexSetting md p) (hsr : p.sr < 1)
    (h : Solution md p σ) (h' : Solution md p τ) (hm : Spec.Mixable md p σ) (hm' : Spec.Mixable md p τ)
    {l : ℝ} (h0 : 0 < l) (h1 : l < 1) :
    ∃ ρ, Solution md p ρ ∧ Spec.Mixable md p ρ ∧
      (∀ t ≤ p.tf, ∀ r ∈ p.regions,
        ρ.R .relative_abatement t r = l * σ.R .relative_abatement t r + (1 - l) * τ.R .relative_abatement t r) ∧
      l * Spec.objectiveValue md p σ + (1 - l) * Spec.objectiveValue md p τ ≤ Spec.objectiveValue md p ρ ∧
      ((∃ t ≤ p.tf, 0 < t ∧ ∃ r ∈ p.regions, 0 < p.baseline_emissions t r ∧
          σ.R .relative_abatement t r ≠ τ.R .relative_abatement t r) →
        l * Spec.objectiveValue md p σ + (1 - l) * Spec.objectiveValue md p τ < Spec.objectiveValue md p ρ) := by
  have l1 : 0 < 1 - l := by linarith
  have hex := hc.exogenous
  have hne : p.regions ≠ [] := h.regions_ne
  obtain ⟨ρ, hρ, q1, q2, q3, q4, q5, q6, q7, q8, q9⟩ := Mixed.sol hadm hc h h' h0 h1
  have costs : ∀ t ≤ p.tf, ∀ r ∈ p.regions,
      ρ.R .mitigation_costs t r ≤ l * σ.R .mitigation_costs t r + (1 - l) * τ.R .mitigation_costs t r ∧
      (0 < p.baseline_emissions t r → σ.R .relative_abatement t r ≠ τ.R .relative_abatement t r →
        ρ.R .mitigation_costs t r < l * σ.R .mitigation_costs t r + (1 - l) * τ.R .mitigation_costs t r) := by
    intro t ht r hr
    obtain ⟨-, -, -, c2, c3⟩ := Mixed.price_le h h' hex hadm hc h0 h1 ht hr
    rw [C33_costs_notrade h hc.policy.trade ht hr, C33_costs_notrade h' hc.policy.trade ht hr, q7 t ht r hr]
    exact ⟨c2, c3⟩
  have abate : ∀ t ≤ p.tf, ∀ r ∈ p.regions,
      ρ.R .relative_abatement t r = l * σ.R .relative_abatement t r + (1 - l) * τ.R .relative_abatement t r := by
    intro t ht r hr
    rw [q1 t ht r hr]
    show (if t = 0 then 0 else _) = _
    rcases Nat.eq_zero_or_pos t with rfl | hpos
    · rw [(C32_no_abatement h hc.mac hr).1, (C32_no_abatement h' hc.mac hr).1]; simp
    · rw [if_neg (by omega)]
  have hdt := hadm.dt_pos
  have hw : ∀ t : ℕ, 0 < p.dt * Real.exp (-p.PRTP * ((p.beginyear + ↑(t + 1) * p.dt) - p.beginyear)) := fun t =>
    mul_pos hdt (Real.exp_pos _)
  -- comparison of discounted sums
  have sums : ∀ {f g k : ℕ → ℝ}, (∀ t ≤ p.tf, 0 < t → l * f t + (1 - l) * g t ≤ k t) →
      (l * Spec.discountedSum p f p.tf + (1 - l) * Spec.discountedSum p g p.tf ≤ Spec.discountedSum p k p.tf ∧
      ((∃ t ≤ p.tf, 0 < t ∧ l * f t + (1 - l) * g t < k t) →
        l * Spec.discountedSum p f p.tf + (1 - l) * Spec.discountedSum p g p.tf < Spec.discountedSum p k p.tf)) := by
    intro f g k hfg
    have e : l * Spec.discountedSum p f p.tf + (1 - l) * Spec.discountedSum p g p.tf =
        Spec.discountedSum p (fun t => l * f t + (1 - l) * g t) p.tf := by
      unfold Spec.discountedSum
      rw [Finset.mul_sum, Finset.mul_sum, ← Finset.sum_add_distrib]
      exact Finset.sum_congr rfl fun t _ => by ring
    rw [e]
    have hle : ∀ t ∈ Finset.range p.tf,
        p.dt * Real.exp (-p.PRTP * ((p.beginyear + ↑(t + 1) * p.dt) - p.beginyear)) * (l * f (t + 1) + (1 - l) * g (t + 1)) ≤
        p.dt * Real.exp (-p.PRTP * ((p.beginyear + ↑(t + 1) * p.dt) - p.beginyear)) * k (t + 1) := fun t ht =>
      mul_le_mul_of_nonneg_left (hfg (t + 1) (by simpa using ht) (Nat.succ_pos t)) (hw t).le
    refine ⟨Finset.sum_le_sum hle, ?_⟩
    rintro ⟨t, ht, hpos, hlt⟩
    obtain ⟨t, rfl⟩ : ∃ s, t = s + 1 := ⟨t - 1, by omega⟩
    exact Finset.sum_lt_sum hle ⟨t, Finset.mem_range.2 ht, mul_lt_mul_of_pos_left hlt (hw t)⟩
  -- the economy of the mixture
  have econ : md.objective = .utility → Spec.ConcaveWelfare md p → Spec.Prosperous p σ → Spec.Prosperous p τ →
      Spec.Prosperous p ρ ∧ ∀ t ≤ p.tf, ∀ r ∈ p.regions,
        l * σ.R .consumption t r + (1 - l) * τ.R .consumption t r ≤ ρ.R .consumption t r ∧
        (0 < p.baseline_emissions t r → σ.R .relative_abatement t r ≠ τ.R .relative_abatement t r →
          l * σ.R .consumption t r + (1 - l) * τ.R .consumption t r < ρ.R .consumption t r) := by
    intro _ hw P P'
    have cap := fun t (ht : t ≤ p.tf) r (hr : r ∈ p.regions) =>
      Mixed.capital hadm hc h h' h0 h1 hw.alpha P.capital P'.capital P.costs P'.costs ht hr
    have gro := fun t (ht : t ≤ p.tf) r (hr : r ∈ p.regions) =>
      Mixed.gross hadm hc h h' h0 h1 hw.alpha P.capital P'.capital P.costs P'.costs ht hr
    have cons : ∀ t ≤ p.tf, ∀ r ∈ p.regions,
        l * σ.R .consumption t r + (1 - l) * τ.R .consumption t r ≤ ρ.R .consumption t r ∧
        (0 < p.baseline_emissions t r → σ.R .relative_abatement t r ≠ τ.R .relative_abatement t r →
          l * σ.R .consumption t r + (1 - l) * τ.R .consumption t r < ρ.R .consumption t r) := by
      intro t ht r hr
      rw [h.eqs.economy.consumption t ht r hr, h'.eqs.economy.consumption t ht r hr, hρ.eqs.economy.consumption t ht r hr,
        NoAbate.net_eq (.inl hc.no_damages) h ht hr, NoAbate.net_eq (.inl hc.no_damages) h' ht hr,
        NoAbate.net_eq (.inl hc.no_damages) hρ ht hr]
      have g := gro t ht r hr
      rw [← q9 t ht r hr] at g
      have s1 : 0 < 1 - p.sr := by linarith
      refine ⟨?_, fun hb hne => ?_⟩
      · have := mul_le_mul_of_nonneg_left (add_le_add g (neg_le_neg (costs t ht r hr).1)) s1.le
        linarith
      · have := mul_lt_mul_of_pos_left (add_lt_add_of_le_of_lt g (neg_lt_neg ((costs t ht r hr).2 hb hne))) s1
        linarith
    refine ⟨⟨fun t ht r hr => ?_, fun t ht r hr => ?_, fun t ht hpos r hr => ?_⟩, cons⟩
    · rw [q8 t ht r hr]
      refine le_trans ?_ (cap t ht r hr)
      have i1 := mul_le_mul_of_nonneg_left (P.capital t ht r hr) h0.le
      have i2 := mul_le_mul_of_nonneg_left (P'.capital t ht r hr) l1.le
      linarith
    · have i1 := mul_lt_mul_of_pos_left (P.costs t ht r hr) h0
      have i2 := mul_lt_mul_of_pos_left (P'.costs t ht r hr) l1
      have i3 := cap t (by omega) r hr
      rw [← q8 t (by omega) r hr] at i3
      have i4 := mul_le_mul_of_nonneg_left (costs (t + 1) ht r hr).1 (mul_nonneg hdt.le hadm.sr_nonneg)
      linarith
    · refine le_trans ?_ (cons t ht r hr).1
      have i1 := mul_le_mul_of_nonneg_left (P.consumption t ht hpos r hr) h0.le
      have i2 := mul_le_mul_of_nonneg_left (P'.consumption t ht hpos r hr) l1.le
      linarith
  refine ⟨ρ, hρ, fun ho => ⟨(hm ho).1, (econ ho (hm ho).1 (hm ho).2 (hm' ho).2).1⟩, abate, ?_⟩
  unfold Spec.objectiveValue
  cases ho : md.objective with
  | utility =>
    obtain ⟨hw, P⟩ := hm ho
    obtain ⟨-, P'⟩ := hm' ho
    obtain ⟨-, cons⟩ := econ ho hw P P'
    obtain ⟨μ, wμ, eμ⟩ := Mixed.welfare_env h.eqs.welfare
      fun t r => l * σ.R .consumption t r + (1 - l) * τ.R .consumption t r
    have mid : ∀ t ≤ p.tf, 0 < t → l * σ.G .yearly_welfare t + (1 - l) * τ.G .yearly_welfare t ≤ μ.G .yearly_welfare t :=
      fun t ht hpos => Mixed.welfare_mixed hne hw.elasmu hw.inequality h.eqs.welfare h'.eqs.welfare wμ ht
        (hadm.pop_pos t ht) (P.consumption t ht hpos) (P'.consumption t ht hpos) h0 h1 fun r _ => eμ t r
    have up : ∀ t ≤ p.tf, μ.G .yearly_welfare t ≤ ρ.G .yearly_welfare t := by
      intro t ht
      by_cases hall : ∃ r ∈ p.regions, μ.R .consumption t r < ρ.R .consumption t r
      · exact (welfare_lt hne wμ hρ.eqs.welfare ht (hadm.pop_pos t ht)
          (fun r hr => by rw [eμ]; exact (cons t ht r hr).1) hall).le
      · push Not at hall
        exact (welfare_eq wμ hρ.eqs.welfare ht fun r hr =>
          le_antisymm (by rw [eμ]; exact (cons t ht r hr).1) (hall r hr)).1.le
    have S := sums (f := fun t => σ.G .yearly_welfare t) (g := fun t => τ.G .yearly_welfare t)
      (k := fun t => ρ.G .yearly_welfare t) fun t ht hpos => (mid t ht hpos).trans (up t ht)
    show l * σ.G .NPV p.tf + (1 - l) * τ.G .NPV p.tf ≤ ρ.G .NPV p.tf ∧
      (_ → l * σ.G .NPV p.tf + (1 - l) * τ.G .NPV p.tf < ρ.G .NPV p.tf)
    rw [C45_utility h ho le_rfl, C45_utility h' ho le_rfl, C45_utility hρ ho le_rfl]
    refine ⟨S.1, ?_⟩
    rintro ⟨t, ht, hpos, r, hr, hb, hd⟩
    refine S.2 ⟨t, ht, hpos, (mid t ht hpos).trans_lt ?_⟩
    exact welfare_lt hne wμ hρ.eqs.welfare ht (hadm.pop_pos t ht)
      (fun r hr => by rw [eμ]; exact (cons t ht r hr).1) ⟨r, hr, by rw [eμ]; exact (cons t ht r hr).2 hb hd⟩
  | globalcosts =>
    have hsum : ∀ {ρ : Env}, Solution md p ρ → ∀ t ≤ p.tf,
        (p.regions.map fun r => ρ.R .damage_costs t r * ρ.R .GDP_gross t r).sum = 0 := by
      intro ρ hρ t ht
      have hz := hρ.eqs.damages
      rw [hc.no_damages] at hz
      have hz' : ∀ t ≤ p.tf, ∀ r ∈ p.regions, ρ.R .damage_costs t r = 0 := hz
      refine Eq.trans (sumR_congr (p := p) (g := fun _ => 0) fun r hr => ?_) sumR_zero
      rw [hz' t ht r hr, zero_mul]
    set W : Env → ℕ → ℝ := fun ρ t => -((p.regions.map fun r => ρ.R .mitigation_costs t r).sum +
      (p.regions.map fun r => ρ.R .damage_costs t r * ρ.R .GDP_gross t r).sum) with hW
    have eW : ∀ {ρ : Env}, Solution md p ρ → ∀ t ≤ p.tf, W ρ t = -p.sumR fun r => ρ.R .mitigation_costs t r := by
      intro ρ hρ t ht
      rw [hW]; dsimp only
      rw [hsum hρ t ht, add_zero]; rfl
    have npv : ∀ {ρ : Env}, Solution md p ρ → -ρ.G .NPV p.tf = Spec.discountedSum p (W ρ) p.tf := by
      intro ρ hρ
      rw [C45_globalcosts hρ ho le_rfl]
      unfold Spec.discountedSum
      rw [← Finset.sum_neg_distrib]
      exact Finset.sum_congr rfl fun t _ => by rw [hW]; ring
    have mixW : ∀ t ≤ p.tf, l * W σ t + (1 - l) * W τ t =
        -p.sumR fun r => l * σ.R .mitigation_costs t r + (1 - l) * τ.R .mitigation_costs t r := by
      intro t ht
      rw [eW h t ht, eW h' t ht, sumR_add, sumR_mul_left, sumR_mul_left]; ring
    have S := sums (f := W σ) (g := W τ) (k := W ρ) fun t ht _ => by
      rw [mixW t ht, eW hρ t ht]
      exact neg_le_neg (sumR_le fun r hr => (costs t ht r hr).1)
    show l * -σ.G .NPV p.tf + (1 - l) * -τ.G .NPV p.tf ≤ -ρ.G .NPV p.tf ∧
      (_ → l * -σ.G .NPV p.tf + (1 - l) * -τ.G .NPV p.tf < -ρ.G .NPV p.tf)
    rw [npv h, npv h', npv hρ]
    refine ⟨S.1, ?_⟩
    rintro ⟨t, ht, hpos, r, hr, hb, hd⟩
    refine S.2 ⟨t, ht, hpos, ?_⟩
    rw [mixW t ht, eW hρ t ht]
    exact neg_lt_neg (sumR_lt (fun r hr => (costs t ht r hr).1) ⟨r, hr, (costs t ht r hr).2 hb hd⟩)

/-- **C84.** There is only one optimal policy: two optima abate the same in all regions with baseline emissions. -/
theorem C84_unique (hadm : p.Admissible) (hc : Spec.ConvexSetting md p) (hsr : p.sr < 1)
    (h : Optimal md p σ) (h' : Optimal md p τ) (hm : Spec.Mixable md p σ) (hm' : Spec.Mixable md p τ)
    {t : ℕ} (ht : t ≤ p.tf) {r : String} (hr : r ∈ p.regions) (hb : 0 < p.baseline_emissions t r) :
    σ.R .relative_abatement t r = τ.R .relative_abatement t r := by
  rcases Nat.eq_zero_or_pos t with rfl | hpos
  · rw [(C32_no_abatement h.1 hc.mac hr).1, (C32_no_abatement h'.1 hc.mac hr).1]
  by_contra hne
  obtain ⟨ρ, hρ, -, -, -, lt⟩ := C84_mixture_better hadm hc hsr h.1 h'.1 hm hm' (l := 1 / 2) (by norm_num) (by norm_num)
  have i := lt ⟨t, ht, hpos, r, hr, hb, hne⟩
  have b1 := h.best hρ
  have b2 := h'.best hρ
  linarith

/-- **C84.** Every other policy is strictly worse. -/
theorem C84_others_worse (hadm : p.Admissible) (hc : Spec.ConvexSetting md p) (hsr : p.sr < 1)
    (h : Optimal md p σ) (h' : Solution md p τ) (hm : Spec.Mixable md p σ) (hm' : Spec.Mixable md p τ)
    (hne : ∃ t ≤ p.tf, 0 < t ∧ ∃ r ∈ p.regions, 0 < p.baseline_emissions t r ∧
      σ.R .relative_abatement t r ≠ τ.R .relative_abatement t r) :
    Spec.objectiveValue md p τ < Spec.objectiveValue md p σ := by
  obtain ⟨ρ, hρ, -, -, -, lt⟩ := C84_mixture_better hadm hc hsr h.1 h' hm hm' (l := 1 / 2) (by norm_num) (by norm_num)
  have i := lt hne
  have b1 := h.best hρ
  linarith

/-- **C84.** … and so the same emissions, temperature, prices, costs and consumption, if every region has baseline
emissions. -/
theorem C84_same_outcome (hadm : p.Admissible) (hc : Spec.ConvexSetting md p) (hsr : p.sr < 1)
    (h : Optimal md p σ) (h' : Optimal md p τ) (hm : Spec.Mixable md p σ) (hm' : Spec.Mixable md p τ)
    (hb : ∀ t ≤ p.tf, ∀ r ∈ p.regions, 0 < p.baseline_emissions t r) {t : ℕ} (ht : t ≤ p.tf) :
    σ.G .temperature t = τ.G .temperature t ∧ σ.G .cumulative_emissions t = τ.G .cumulative_emissions t ∧
    ∀ r ∈ p.regions, σ.R .relative_abatement t r = τ.R .relative_abatement t r ∧
      σ.R .regional_emissions t r = τ.R .regional_emissions t r ∧ σ.R .carbonprice t r = τ.R .carbonprice t r ∧
      σ.R .mitigation_costs t r = τ.R .mitigation_costs t r ∧
      (Spec.CostsBelowCapital p σ → σ.R .capital_stock t r = τ.R .capital_stock t r ∧
        σ.R .GDP_net t r = τ.R .GDP_net t r ∧ σ.R .consumption t r = τ.R .consumption t r) := by
  have ha : Spec.SameAbatement p σ τ := fun t ht r hr => C84_unique hadm hc hsr h h' hm hm' ht hr (hb t ht r hr)
  have cl := C54_climate h.1 h'.1 ha hc.exogenous ht
  have em := C54_emissions h.1 h'.1 ha hc.exogenous ht
  have co := C54_costs h.1 h'.1 ha hc.exogenous ht
  refine ⟨cl.2.1, cl.1, fun r hr => ⟨ha t ht r hr, (em.1 r hr).1, (co.2 r hr).1, (co.2 r hr).2.2 hc.policy.trade, fun hK => ?_⟩⟩
  have ec := C54_economy h.1 h'.1 ha hc.exogenous hc.policy.trade hc.policy.transfer hadm.econData hadm.alpha_nonneg
    hadm.alpha_lt.le hK ht hr
  exact ⟨ec.1, ec.2.2.1, ec.2.2.2.2⟩

/-- **C84.** What a solver finds locally is the best there is: a solution that no solution with nearby abatement improves
on is at least as good as all (prosperous) solutions. -/
theorem C84_local_is_global (hadm : p.Admissible) (hc : Spec.ConvexSetting md p) (hsr : p.sr < 1)
    (h : Solution md p σ) (hm : Spec.Mixable md p σ) {δ : ℝ} (hδ : 0 < δ)
    (hloc : ∀ ρ, Solution md p ρ →
      (∀ t ≤ p.tf, ∀ r ∈ p.regions, |ρ.R .relative_abatement t r - σ.R .relative_abatement t r| < δ) →
      Spec.objectiveValue md p ρ ≤ Spec.objectiveValue md p σ)
    (h' : Solution md p τ) (hm' : Spec.Mixable md p τ) :
    Spec.objectiveValue md p τ ≤ Spec.objectiveValue md p σ := by
  -- all abatement differences are below some bound
  obtain ⟨D, hD0, hD⟩ : ∃ D : ℝ, 0 < D ∧ ∀ t ≤ p.tf, ∀ r ∈ p.regions,
      |τ.R .relative_abatement t r - σ.R .relative_abatement t r| < D := by
    have : ∀ n : ℕ, ∃ D : ℝ, 0 < D ∧ ∀ t < n, ∀ r ∈ p.regions,
        |τ.R .relative_abatement t r - σ.R .relative_abatement t r| < D := by
      intro n
      induction n with
      | zero => exact ⟨1, one_pos, fun t ht => absurd ht (by omega)⟩
      | succ n ih =>
        obtain ⟨D, hD0, hD⟩ := ih
        refine ⟨D + (p.sumR fun r => |τ.R .relative_abatement n r - σ.R .relative_abatement n r|), ?_, fun t ht r hr => ?_⟩
        · exact add_pos_of_pos_of_nonneg hD0 (sumR_nonneg fun r hr => abs_nonneg _)
        · rcases Nat.lt_succ_iff_lt_or_eq.1 ht with ht | rfl
          · exact (hD t ht r hr).trans_le (le_add_of_nonneg_right (sumR_nonneg fun r hr => abs_nonneg _))
          · have : |τ.R .relative_abatement t r - σ.R .relative_abatement t r| ≤
                p.sumR fun r => |τ.R .relative_abatement t r - σ.R .relative_abatement t r| :=
              List.single_le_sum (by simp only [List.mem_map]; rintro x ⟨r, -, rfl⟩; exact abs_nonneg _) _
                (List.mem_map.2 ⟨r, hr, rfl⟩)
            linarith
    obtain ⟨D, h1, h2⟩ := this (p.tf + 1)
    exact ⟨D, h1, fun t ht => h2 t (by omega)⟩
  -- a weight small enough
  set l := min (1 / 2) (δ / D) with hl
  have l0 : 0 < l := lt_min (by norm_num) (div_pos hδ hD0)
  have l1 : l < 1 := (min_le_left _ _).trans_lt (by norm_num)
  have l2 : l * D ≤ δ := by
    calc l * D ≤ δ / D * D := mul_le_mul_of_nonneg_right (min_le_right _ _) hD0.le
      _ = δ := by field_simp
  obtain ⟨ρ, hρ, -, ab, le, -⟩ := C84_mixture_better hadm hc hsr h' h hm' hm l0 l1
  have := hloc ρ hρ fun t ht r hr => by
    rw [ab t ht r hr]
    have e : l * τ.R .relative_abatement t r + (1 - l) * σ.R .relative_abatement t r - σ.R .relative_abatement t r =
        l * (τ.R .relative_abatement t r - σ.R .relative_abatement t r) := by ring
    rw [e, abs_mul, abs_of_pos l0]
    exact (mul_lt_mul_of_pos_left (hD t ht r hr) l0).trans_le l2
  have : l * (Spec.objectiveValue md p τ - Spec.objectiveValue md p σ) ≤ 0 := by linarith
  have := nonpos_of_mul_nonpos_right this l0
  linarith

/-! ## Concrete cases

The world of two regions with a temperature target, a budget and a net-zero requirement (`Ex.bq`): every solution is
prosperous, an optimum exists, and it is the only one; the two policies "nothing" and "halve emissions" can be mixed. -/

namespace Ex
variable {w : WelfareModule} {o : ObjectiveModule} {T b : Option ℝ} {nz : Bool}

theorem bq_convex : Spec.ConvexSetting (md0 .nodamage w o) (bq T b nz) where
  policy := { toUnsharedPolicy := ⟨rfl, rfl, le_rfl, le_rfl, by norm_num [ex], by simp [ex]⟩, trade := rfl }
  no_damages := rfl
  exogenous := rfl
  mac := (bq_setting (w := w) (o := o)).mac
  beta := by norm_num [ex]
  rate_le := by norm_num [ex]
  rate_ge := by
    show (2 : ℝ) ^ (-((3 - 1) / 2) : ℝ) ≤ 1 / 2
    norm_num
  trapz := rfl
  T0_nonneg := by norm_num [ex]
  TCRE_nonneg := by norm_num [ex]
  melt := (bq_setting (w := w) (o := o)).baseline.melt

theorem bq_mixable {σ : Env} (h : Solution (md0 .nodamage w o) (bq T b nz) σ) :
    Spec.Mixable (md0 .nodamage w o) (bq T b nz) σ := by
  intro _
  refine ⟨⟨by norm_num [ex], by norm_num [ex], fun _ => by norm_num [ex]⟩, ⟨fun t ht r hr => ?_, bq_below_capital h,
    fun t ht hpos r hr => ?_⟩⟩
  · linarith [bq_capital h hr (t := t) ht]
  · obtain ⟨t, rfl⟩ : ∃ s, t = s + 1 := ⟨t - 1, by omega⟩
    have g : σ.R .GDP_gross (t + 1) r = 10 := by
      rw [(h.eqs.economy.gross t ht r hr).2]
      simp [get_TFP_value, calc_GDP_real, ex]
    rw [h.eqs.economy.consumption (t + 1) ht r hr, NoAbate.net_eq (.inl rfl) h (t := t + 1) ht hr, g]
    show (1 : ℝ) / 10 ≤ (1 - 1 / 5) * _
    linarith [(bq_costs h (t := t + 1) ht hr).2]

/-- There is exactly one optimal policy, with every welfare function and objective … -/
example (w : WelfareModule) (o : ObjectiveModule) :
    ∃ σ, Optimal (md0 .nodamage w o) (bq (some 2) (some 1600) true) σ ∧
      (∃ t : ℕ, t ≤ 3 ∧ 0 < t ∧ 0 < ((bq (some 2) (some 1600) true).regions.map fun r => σ.R .mitigation_costs t r).sum) ∧
      ∀ τ, Optimal (md0 .nodamage w o) (bq (some 2) (some 1600) true) τ →
        ∀ t ≤ 3, ∀ r ∈ (bq (some 2) (some 1600) true).regions, σ.R .relative_abatement t r = τ.R .relative_abatement t r := by
  obtain ⟨σ, h⟩ := C65_optimum_exists_exogenous (md := md0 .nodamage w o) (p := bq (some 2) (some 1600) true) bq_admissible
    (fun h => by cases h) rfl ⟨_, bq_sol (.inr rfl) (.inr rfl)⟩
  refine ⟨σ, h, bq_must_pay h.1 rfl, fun τ h' t ht r hr => ?_⟩
  exact C84_unique bq_admissible bq_convex (by norm_num [ex]) h h' (bq_mixable h.1) (bq_mixable h'.1) (t := t) ht hr
    (by norm_num [ex])

/-- … all optima have the same outcome … -/
example (w : WelfareModule) (o : ObjectiveModule) {σ τ : Env} (h : Optimal (md0 .nodamage w o) (bq (some 2) (some 1600) true) σ)
    (h' : Optimal (md0 .nodamage w o) (bq (some 2) (some 1600) true) τ) : σ.G .temperature 3 = τ.G .temperature 3 :=
  (C84_same_outcome bq_admissible bq_convex (by norm_num [ex]) h h' (bq_mixable h.1) (bq_mixable h'.1)
    (fun _ _ _ _ => by norm_num [ex]) (t := 3) le_rfl).1

/-- … and what cannot be improved nearby is optimal. -/
example (w : WelfareModule) (o : ObjectiveModule) {σ τ : Env} (h : Solution (md0 .nodamage w o) (bq (some 2) (some 1600) true) σ)
    (hloc : ∀ ρ, Solution (md0 .nodamage w o) (bq (some 2) (some 1600) true) ρ →
      (∀ t ≤ 3, ∀ r ∈ (bq (some 2) (some 1600) true).regions, |ρ.R .relative_abatement t r - σ.R .relative_abatement t r| < 1 / 100) →
      Spec.objectiveValue (md0 .nodamage w o) (bq (some 2) (some 1600) true) ρ ≤
        Spec.objectiveValue (md0 .nodamage w o) (bq (some 2) (some 1600) true) σ)
    (h' : Solution (md0 .nodamage w o) (bq (some 2) (some 1600) true) τ) :=
  C84_local_is_global bq_admissible bq_convex (by norm_num [ex]) h (bq_mixable h) (δ := 1 / 100) (by norm_num) hloc h'
    (bq_mixable h')

/-- Doing nothing mixed with halving emissions: strictly better than the mean of the two. -/
example (w : WelfareModule) (o : ObjectiveModule) : ∃ ρ, Solution (md0 .nodamage w o) free ρ ∧
    ρ.R .relative_abatement 2 "A" = 1 / 6 ∧
    1 / 3 * Spec.objectiveValue (md0 .nodamage w o) free (σHalf w o) +
      (1 - 1 / 3) * Spec.objectiveValue (md0 .nodamage w o) free (σZero w o) < Spec.objectiveValue (md0 .nodamage w o) free ρ := by
  have s1 : Solution (md0 .nodamage w o) (bq none none true) (σHalf w o) := free_sol .nodamage w o mild_half
  have s2 : Solution (md0 .nodamage w o) (bq none none true) (σZero w o) := free_sol .nodamage w o mild_zero
  have a1 : (σHalf w o).R .relative_abatement 2 "A" = 1 / 2 := by show half 2 "A" = _; norm_num [half]
  have a2 : (σZero w o).R .relative_abatement 2 "A" = 0 := rfl
  obtain ⟨ρ, hρ, -, ab, -, lt⟩ := C84_mixture_better (p := bq none none true) bq_admissible bq_convex (by norm_num [ex]) s1 s2
    (bq_mixable s1) (bq_mixable s2) (l := 1 / 3) (by norm_num) (by norm_num)
  refine ⟨ρ, hρ, ?_, lt ⟨2, by norm_num [ex], by norm_num, "A", by simp [ex], by norm_num [ex], ?_⟩⟩
  · rw [ab 2 (by norm_num [ex]) "A" (by simp [ex]), a1, a2]; norm_num
  · rw [a1, a2]; norm_num

example (w : WelfareModule) (o : ObjectiveModule) :=
  C84_mixture (p := bq none none true) (l := 1 / 3) bq_admissible bq_convex (free_sol .nodamage w o mild_half)
    (free_sol .nodamage w o mild_zero) (by norm_num) (by norm_num)

example (w : WelfareModule) (o : ObjectiveModule) {σ τ : Env} (h : Optimal (md0 .nodamage w o) (bq (some 2) (some 1600) true) σ)
    (h' : Solution (md0 .nodamage w o) (bq (some 2) (some 1600) true) τ)
    (hne : σ.R .relative_abatement 1 "A" ≠ τ.R .relative_abatement 1 "A") :=
  C84_others_worse bq_admissible bq_convex (by norm_num [ex]) h h' (bq_mixable h.1) (bq_mixable h')
    ⟨1, by norm_num [ex], one_pos, "A", by simp [ex], by norm_num [ex], hne⟩

end Ex
end Mimosa
