import Verif.Props.Mixture
import Verif.Props.Consistent
import Verif.Props.MilderClimate

/-!
# C89: ambition can be combined, and one policy is the most ambitious of all

The most ambitious parts of two possible policies form a possible policy (if the limits on world emissions allow it):
less cumulative emissions mean more learning, so no carbon price exceeds its bound, and less damage.  Hence there is one
policy with the lowest emissions in every region and every year, and it decides which targets can be met.
-/

set_option linter.unusedVariables false

namespace Mimosa

variable {md : Modules} {p : Params} {σ τ : Env}

/-- No transfers or effort sharing; exogenous baseline emissions; learning never makes abatement dearer; no step melts more
ice than there is even on the baseline; if there are damages, they rise with temperature and sea level, and undoing all
sea-level rise up to the start would gain at most half of the product. -/
structure Spec.AmbitionSetting (md : Modules) (p : Params) : Prop where
  policy : Spec.UnsharedPolicy md p
  exogenous : p.use_carbon_intensity_for_baseline = false
  mac : Spec.MacData p
  rate_le : p.LBD_rate ≤ 1
  T0_nonneg : 0 ≤ p.T0
  TCRE_nonneg : 0 ≤ p.TCRE
  melt : Spec.MeltOk p.dt p.tf (Spec.pathTemperature p fun _ _ => 0)
  damages : md.damage = .COACCH → 0 ≤ p.damage_scale_factor ∧ ∀ r ∈ p.regions,
    Spec.CoeffsOk p.noslr r (p.T0 - 0.6) ∧ Spec.CoeffsOk p.slr r 0 ∧
    p.damage_scale_factor * (formVal (Spec.pathSeaLevel p (fun _ _ => 0) 0) p.slr r - formVal 0 p.slr r) ≤ 1 / 2

/-- In every region and year after the first, the larger of the two abatements. -/
noncomputable def Spec.jointAbatement (σ τ : Env) (t : ℕ) (r : String) : ℝ :=
  if t = 0 then 0 else max (σ.R .relative_abatement t r) (τ.R .relative_abatement t r)

/-- The limits that concern the world as a whole and forbid too low emissions: cumulative emissions are not negative, the
minimum level and the inertia of world emissions. -/
structure Spec.WorldAllows (p : Params) (a : ℕ → String → ℝ) : Prop where
  cumulative : ∀ t ≤ p.tf, 0 ≤ Spec.pathCumulative p a t
  min_level : ∀ l, p.global_min_level = some l → ∀ t ≤ p.tf, l ≤ Spec.pathWorld p a t
  inertia : ∀ i, p.inertia_global = some i → ∀ t < p.tf,
    p.dt * i * (p.regions.map fun r => p.baseline_emissions 0 r).sum ≤ Spec.pathWorld p a (t + 1) - Spec.pathWorld p a t

namespace Joint

section
variable (h : Solution md p σ) (h' : Solution md p τ) (hs : Spec.AmbitionSetting md p) (hdt : 0 ≤ p.dt)
include h h' hs

theorem em_eq {t : ℕ} (ht : t ≤ p.tf) {r : String} (hr : r ∈ p.regions) :
    Spec.pathEmissions p (Spec.jointAbatement σ τ) t r = min (σ.R .regional_emissions t r) (τ.R .regional_emissions t r) := by
  unfold Spec.pathEmissions Spec.jointAbatement
  rcases Nat.eq_zero_or_pos t with rfl | h0
  · rw [(C32_emissions h).1 r hr, (C32_emissions h').1 r hr]; simp
  · have hb := hs.policy.baseline t ht r hr
    rw [C23_abated_baseline h ht h0 hr, (C23_baseline h ht hr).1 hs.exogenous, C23_abated_baseline h' ht h0 hr,
      (C23_baseline h' ht hr).1 hs.exogenous, if_neg (by omega), ← min_mul_of_nonneg _ _ hb]
    congr 1
    rcases le_total (σ.R .relative_abatement t r) (τ.R .relative_abatement t r) with i | i
    · rw [max_eq_right i, min_eq_right (by linarith)]
    · rw [max_eq_left i, min_eq_left (by linarith)]

theorem world_le {t : ℕ} (ht : t ≤ p.tf) :
    Spec.pathWorld p (Spec.jointAbatement σ τ) t ≤ σ.G .global_emissions t ∧
    Spec.pathWorld p (Spec.jointAbatement σ τ) t ≤ τ.G .global_emissions t := by
  rw [C23_global_is_sum h ht, C23_global_is_sum h' ht]
  constructor <;> refine List.sum_le_sum fun r hr => ?_ <;> rw [em_eq h h' hs ht hr]
  · exact min_le_left _ _
  · exact min_le_right _ _

include hdt in
theorem cum_le {t : ℕ} (ht : t ≤ p.tf) :
    Spec.pathCumulative p (Spec.jointAbatement σ τ) t ≤ σ.G .cumulative_emissions t ∧
    Spec.pathCumulative p (Spec.jointAbatement σ τ) t ≤ τ.G .cumulative_emissions t := by
  induction t with
  | zero => rw [h.eqs.emissions.cumulative_init, h'.eqs.emissions.cumulative_init]; exact ⟨le_rfl, le_rfl⟩
  | succ t ih =>
    obtain ⟨i1, i2⟩ := ih (by omega)
    obtain ⟨w1, w2⟩ := world_le h h' hs ht
    obtain ⟨v1, v2⟩ := world_le h h' hs (t := t) (by omega)
    rw [h.eqs.emissions.cumulative t ht, h'.eqs.emissions.cumulative t ht, Spec.pathCumulative]
    split
    · constructor
      · have := mul_le_mul_of_nonneg_left (add_le_add w1 v1) hdt; linarith
      · have := mul_le_mul_of_nonneg_left (add_le_add w2 v2) hdt; linarith
    · exact ⟨add_le_add i1 (mul_le_mul_of_nonneg_left w1 hdt), add_le_add i2 (mul_le_mul_of_nonneg_left w2 hdt)⟩

end

theorem learn_pos (hadm : p.Admissible) (a : ℕ → String → ℝ) (t : ℕ) : 0 < (Path.x a).learn p t :=
  mul_pos (Real.rpow_pos_of_pos (soft_min_pos_one _) _) (one_div_pos.2 (Real.rpow_pos_of_pos hadm.lot _))

theorem regular (hs : Spec.AmbitionSetting md p) (hdt : 0 < p.dt) (h : Solution md p σ) : Spec.RegularClimate md p σ := by
  have T0 : ∀ t ≤ p.tf, 0 ≤ σ.G .temperature t := fun t ht => by
    rw [h.eqs.emissions.temperature t ht]
    exact add_nonneg hs.T0_nonneg (mul_nonneg hs.TCRE_nonneg (h.eqs.emissions.cumulative_nonneg t ht))
  have T1 : ∀ t ≤ p.tf, σ.G .temperature t ≤ Spec.pathTemperature p (fun _ _ => 0) t := fun t ht => by
    rw [h.eqs.emissions.temperature t ht]
    unfold Spec.pathTemperature
    have := mul_le_mul_of_nonneg_left (Scaled.cum_le h hs.exogenous hdt hs.policy.baseline ht) hs.TCRE_nonneg
    linarith
  refine ⟨hs.T0_nonneg, ⟨hdt.le, fun t ht => ?_, fun t ht => ?_, fun t ht => ?_⟩, fun hd r hr => ?_, fun hd r hr => ?_⟩
  · have := T0 t ht.le
    positivity
  · refine lt_of_le_of_lt ?_ (hs.melt.glacier t ht)
    have := T1 t ht.le
    gcongr
  · refine lt_of_le_of_lt ?_ (hs.melt.greenland t ht)
    have := T1 t ht.le
    gcongr
  · exact ⟨((hs.damages hd).2 r hr).1, ((hs.damages hd).2 r hr).2.1⟩
  · have e : σ.G .total_SLR 0 = Spec.pathSeaLevel p (fun _ _ => 0) 0 := by
      rw [h.eqs.slr.total 0 (Nat.zero_le _), h.eqs.slr.thermal_init, h.eqs.slr.gsic_init, h.eqs.slr.gis_init]
      unfold Spec.pathSeaLevel Spec.pathSea SeaLevelRise.slr_thermal_expansion_init SeaLevelRise.thermal_init
        SeaLevelRise.thermal_adjust_rate SeaLevelRise.thermal_equil
      ring
    rw [e]
    exact ((hs.damages hd).2 r hr).2.2

theorem sameCosts (hadm : p.Admissible) (hs : Spec.AmbitionSetting md p) (hd : 0 ≤ p.damage_scale_factor) :
    Spec.Milder p p.MAC_gamma p.MAC_scaling_factor p.LOT_rate p.damage_scale_factor :=
  ⟨⟨hs.mac.gamma_pos.le, le_rfl⟩, fun r hr => ⟨(hs.mac.scaling_pos r hr).le, le_rfl⟩, le_rfl, hd, le_rfl⟩

/-- Lower cumulative emissions, at least as much learning. -/
theorem learn_le (hadm : p.Admissible) (hr : p.LBD_rate ≤ 1) (h : Solution md p σ) {a : ℕ → String → ℝ} {t : ℕ}
    (ht : t ≤ p.tf) (hc : Spec.pathCumulative p a t ≤ σ.G .cumulative_emissions t) :
    (Path.x a).learn p t ≤ σ.G .learning_factor t := by
  have e := h.eqs.mitigation
  rw [e.learning t ht, (e.lbd t ht).2, (e.lot t ht).2.2]
  unfold Drivers.learn Drivers.lot Drivers.lbd
  have hlot : 0 ≤ 1 / (1 + p.LOT_rate) ^ (t : ℝ) := (one_div_pos.2 (Real.rpow_pos_of_pos hadm.lot _)).le
  refine mul_le_mul_of_nonneg_right ?_ hlot
  have hlog : p.log_LBD_rate ≤ 0 := by
    unfold Params.log_LBD_rate
    exact div_nonpos_of_nonpos_of_nonneg (Real.log_nonpos hadm.lbd_pos.le hr) (Real.log_nonneg (by norm_num))
  refine Real.rpow_le_rpow_of_nonpos (soft_min_pos_one _) ?_ hlog
  refine (soft_min_strictMono one_pos).monotone ?_
  rw [Path.cum_eq]
  have := div_le_div_of_nonneg_right (sub_le_sub_left hc (p.cumulative_global_baseline_emissions t)) hadm.lbd_scaling.le
  linarith

section
variable (hadm : p.Admissible) (hs : Spec.AmbitionSetting md p) (h : Solution md p σ) (h' : Solution md p τ)
include hadm hs h h'

theorem a_eq {t : ℕ} {r : String} (hr : r ∈ p.regions) :
    Spec.jointAbatement σ τ t r = max (σ.R .relative_abatement t r) (τ.R .relative_abatement t r) := by
  unfold Spec.jointAbatement
  split
  · next h0 => subst h0; rw [(C32_no_abatement h hs.mac hr).1, (C32_no_abatement h' hs.mac hr).1]; simp
  · rfl

theorem price {t : ℕ} (ht : t ≤ p.tf) {r : String} (hr : r ∈ p.regions) :
    0 ≤ (Path.x (Spec.jointAbatement σ τ)).price p t r ∧
    (Path.x (Spec.jointAbatement σ τ)).price p t r ≤ max (σ.R .carbonprice t r) (τ.R .carbonprice t r) := by
  have hL := Joint.learn_pos hadm (Spec.jointAbatement σ τ) t
  have hk := (hs.mac.scaling_pos r hr).le
  have hγ := hs.mac.gamma_pos.le
  have c1 := cum_le h h' hs hadm.dt_pos.le ht
  have l1 := learn_le hadm hs.rate_le h ht c1.1
  have l2 := learn_le hadm hs.rate_le h' ht c1.2
  have b1 := (h.abatement_bounds ht hr).1
  have b2 := (h'.abatement_bounds ht hr).1
  have p1 : σ.R .carbonprice t r = macVal p σ t r := (h.eqs.mitigation.carbonprice t ht r hr).2
  have p2 : τ.R .carbonprice t r = macVal p τ t r := (h'.eqs.mitigation.carbonprice t ht r hr).2
  have pa : (Path.x (Spec.jointAbatement σ τ)).a t r = max (σ.R .relative_abatement t r) (τ.R .relative_abatement t r) :=
    a_eq hadm hs h h' hr
  rw [p1, p2]
  unfold Drivers.price
  rw [pa]
  unfold macVal
  refine ⟨?_, ?_⟩
  · have := Real.rpow_nonneg (le_max_of_le_left (b := σ.R .relative_abatement t r) (c := τ.R .relative_abatement t r) b1) p.MAC_beta
    positivity
  · rcases le_total (σ.R .relative_abatement t r) (τ.R .relative_abatement t r) with i | i
    · rw [max_eq_right i]
      refine le_max_of_le_right ?_
      have := Real.rpow_nonneg b2 p.MAC_beta
      gcongr
    · rw [max_eq_left i]
      refine le_max_of_le_left ?_
      have := Real.rpow_nonneg b1 p.MAC_beta
      gcongr

theorem ok (hw : Spec.WorldAllows p (Spec.jointAbatement σ τ)) : (Path.x (Spec.jointAbatement σ τ)).Ok md p := by
  have hex := hs.exogenous
  have hp := hs.policy
  have e := h.eqs
  have e' := h'.eqs
  have hdt := hadm.dt_pos
  have em := fun {t} (ht : t ≤ p.tf) {r} (hr : r ∈ p.regions) => em_eq h h' hs ht hr
  have cl := fun {t} (ht : t ≤ p.tf) => cum_le h h' hs hdt.le ht
  have hcum0 : ∀ t ≤ p.tf, 0 ≤ (Path.x (Spec.jointAbatement σ τ)).cum p t := fun t ht => by
    rw [Path.cum_eq]; exact hw.cumulative t ht
  have htemp0 : ∀ t ≤ p.tf, 0 ≤ (Path.x (Spec.jointAbatement σ τ)).temp p t := fun t ht => by
    unfold Drivers.temp; exact add_nonneg hs.T0_nonneg (mul_nonneg hs.TCRE_nonneg (hcum0 t ht))
  have hreg := regular hs hdt h
  have hT : ∀ t ≤ p.tf, p.T0 ≤ (Path.x (Spec.jointAbatement σ τ)).temp p t ∧
      (Path.x (Spec.jointAbatement σ τ)).temp p t ≤ σ.G .temperature t := fun t ht => by
    constructor
    · unfold Drivers.temp
      linarith [mul_nonneg hs.TCRE_nonneg (hcum0 t ht)]
    · rw [Path.temp_eq, e.emissions.temperature t ht]
      unfold Spec.pathTemperature
      have := mul_le_mul_of_nonneg_left (cl ht).1 hs.TCRE_nonneg
      linarith
  have sea := fun {t} (ht : t ≤ p.tf) => MilderClimate.sea h hreg (T := (Path.x (Spec.jointAbatement σ τ)).temp p)
    (th := (Path.x (Spec.jointAbatement σ τ)).th p) (gs := (Path.x (Spec.jointAbatement σ τ)).gs p)
    (gi := (Path.x (Spec.jointAbatement σ τ)).gi p) (fun t ht => ⟨hs.T0_nonneg.trans (hT t ht.le).1, (hT t ht.le).2⟩)
    rfl rfl rfl (fun _ _ => rfl) (fun _ _ => rfl) (fun _ _ => rfl) (t := t) ht
  have slr := fun {t} (ht : t ≤ p.tf) => show 0 ≤ (Path.x (Spec.jointAbatement σ τ)).slr p t ∧
      (Path.x (Spec.jointAbatement σ τ)).slr p t ≤ σ.G .total_SLR t by
    obtain ⟨⟨a1, b1⟩, ⟨a2, b2⟩, a3, b3⟩ := sea ht
    rw [e.slr.total t ht]
    show 0 ≤ _ + _ + _ ∧ _ + _ + _ ≤ _
    exact ⟨by linarith, by linarith⟩
  have slr0 : (Path.x (Spec.jointAbatement σ τ)).slr p 0 = σ.G .total_SLR 0 := by
    rw [e.slr.total 0 (Nat.zero_le _), e.slr.thermal_init, e.slr.gsic_init, e.slr.gis_init]
    rfl
  have a0 : ∀ t ≤ p.tf, ∀ r ∈ p.regions, 0 ≤ Spec.jointAbatement σ τ t r ∧ Spec.jointAbatement σ τ t r ≤ 5 / 2 := by
    intro t ht r hr
    rw [a_eq hadm hs h h' hr]
    have i := h.abatement_bounds ht hr
    have i' := h'.abatement_bounds ht hr
    exact ⟨le_max_of_le_left i.1, max_le i.2 i'.2⟩
  have pr := fun {t} (ht : t ≤ p.tf) {r} (hr : r ∈ p.regions) => price hadm hs h h' ht hr
  constructor
  case a_init => intro r hr; simp [Path.x, Spec.jointAbatement]
  case a_nonneg => exact fun t ht r hr => (a0 t ht r hr).1
  case a_le => exact fun t ht r hr => (a0 t ht r hr).2
  case exogenous => intro _; rfl
  case endogenous => intro h; rw [hex] at h; cases h
  case trade => exact h.trade_ne
  case bal_sum => intro _ t ht; unfold Params.sumR; simp [Path.x]
  case tr_init => intro hh; rw [hp.transfer] at hh; cases hh
  case tr_sum => intro hh; rw [hp.transfer] at hh; cases hh
  case tr_max => intro hh; rw [hp.transfer] at hh; cases hh
  case target =>
    intro t ht T hT hy
    have := e.emissions.temperature_target t ht T hT hy
    rw [e.emissions.temperature t ht] at this
    rw [Path.temp_eq]
    unfold Spec.pathTemperature
    have := mul_le_mul_of_nonneg_left (cl ht).1 hs.TCRE_nonneg
    linarith
  case reversible => intro _; exact hp.reversible
  case budget =>
    intro t ht b hb hy
    rw [Path.cum_eq]
    have i1 := e.emissions.budget t ht b hb hy
    rw [if_neg (not_lt.2 hp.reversible)] at i1
    linarith [(cl ht).1]
  case cum_nonneg => exact hcum0
  case global_inertia => exact fun t ht i hi => hw.inertia i hi t ht
  case regional_inertia =>
    intro t ht r hr i hi
    have i1 := e.emissions.regional_inertia t ht r hr i hi
    have i2 := e'.emissions.regional_inertia t ht r hr i hi
    rw [Path.em_eq, Path.em_eq, em ht hr, em (t := t) (Nat.le_of_succ_le ht) hr]
    rcases min_choice (σ.R .regional_emissions (t + 1) r) (τ.R .regional_emissions (t + 1) r) with c | c <;> rw [c]
    · linarith [min_le_left (σ.R .regional_emissions t r) (τ.R .regional_emissions t r)]
    · linarith [min_le_right (σ.R .regional_emissions t r) (τ.R .regional_emissions t r)]
  case global_min => exact fun t ht l hl => hw.min_level l hl t ht
  case regional_min =>
    intro t ht r hr m hl
    rw [Path.em_eq, em ht hr]
    exact le_min (e.emissions.regional_min_level t ht r hr m hl) (e'.emissions.regional_min_level t ht r hr m hl)
  case start => exact hp.start
  case non_increasing =>
    intro t ht r hr hy hn
    have i1 := e.emissions.non_increasing (t + 1) ht r hr (by rw [cast_succ_sub_one]; exact hy) hn
    have i2 := e'.emissions.non_increasing (t + 1) ht r hr (by rw [cast_succ_sub_one]; exact hy) hn
    rw [cast_succ_sub_one] at i1 i2
    rw [Path.em_eq, Path.em_eq, em ht hr, em (t := t) (Nat.le_of_succ_le ht) hr]
    exact min_le_min (sub_nonpos.1 i1) (sub_nonpos.1 i2)
  case net_zero =>
    intro t ht hy hn hb
    rw [Path.gE_eq]
    exact (world_le h h' hs ht).1.trans (e.emissions.net_zero t ht hy hn hb)
  case slr_nonneg =>
    intro t ht
    exact ⟨(sea ht).1.1, (sea ht).2.1.1, (sea ht).2.2.1⟩
  case forms =>
    intro hd t ht r hr
    obtain ⟨c1, c2⟩ := hreg.rising hd r hr
    obtain ⟨k1, k2⟩ := h.instOk.forms hd r hr
    exact ⟨c1.formOk k1 _, c1.formOk k1 _, c2.formOk k2 _, c2.formOk k2 _⟩
  case damS_bounds =>
    intro hd t ht r hr
    have := (MilderClimate.parts h hreg (sameCosts hadm hs (hs.damages hd).1) hd ht hr (hT t ht) (slr ht)).1
    unfold Drivers.damS
    rw [slr0]
    exact this
  case price_nonneg => exact fun t ht r hr => (pr ht hr).1
  case price_le => exact fun t ht r hr => (pr ht hr).2.trans (max_le (h.price_bounds ht hr).2 (h'.price_bounds ht hr).2)
  case rel_costs_min =>
    intro t ht r hr
    have hg := (Path.x (Spec.jointAbatement σ τ)).gross_pos md p hadm ht hr
    have hc : 0 ≤ (Path.x (Spec.jointAbatement σ τ)).cost md p t r := by
      have e1 : (Path.x (Spec.jointAbatement σ τ)).cost md p t r = (Path.x (Spec.jointAbatement σ τ)).area p t r := by
        unfold Drivers.cost Drivers.balance
        cases md.trade <;> exact add_zero _
      rw [e1]
      have hL := Joint.learn_pos hadm (Spec.jointAbatement σ τ) t
      have hk := (hs.mac.scaling_pos r hr).le
      have hγ := hs.mac.gamma_pos.le
      have hβ := hs.mac.beta_pos
      have ha := Real.rpow_nonneg (a0 t ht r hr).1 (p.MAC_beta + 1)
      have hb : 0 ≤ (Path.x (Spec.jointAbatement σ τ)).bl p t r := hp.baseline t ht r hr
      have ha' : 0 ≤ (Path.x (Spec.jointAbatement σ τ)).a t r ^ (p.MAC_beta + 1) := ha
      unfold Drivers.area
      positivity
    have := div_nonneg hc hg.le
    have := hp.cost_floor
    split <;> linarith
  case effort =>
    constructor
    · intro t ht r hr he; exact absurd (hp.regime.symm.trans he) (by decide)
    · intro t ht r hr he; exact absurd (hp.regime.symm.trans he) (by decide)
    · intro t ht r hr he; exact absurd (hp.regime.symm.trans he) (by decide)
  case effort_scope =>
    intro he
    exact absurd (hp.regime.symm.trans he) (by decide)

end
end Joint

/-! ## C59: limits are nothing but limits -/

/-- The values of the assignment respect the limits set in `q` (`p` gives the rest of the data). -/
structure Spec.Meets (p q : Params) (σ : Env) : Prop where
  target : ∀ T, q.temperature_target = some T → ∀ t ≤ p.tf, 2100 ≤ p.year t → σ.G .temperature t ≤ T
  budget : ∀ b, q.budget = some b → ∀ t ≤ p.tf, 2100 ≤ p.year t → σ.G .cumulative_emissions t ≤ b
  net_zero : q.no_pos_emissions_after_budget_year = true → q.budget ≠ none → ∀ t ≤ p.tf, 2100 ≤ p.year t →
    σ.G .global_emissions t ≤ 0
  inertia_global : ∀ i, q.inertia_global = some i → ∀ t < p.tf,
    p.dt * i * (p.regions.map fun r => p.baseline_emissions 0 r).sum ≤ σ.G .global_emissions (t + 1) - σ.G .global_emissions t
  inertia_regional : ∀ i, q.inertia_regional = some i → ∀ t < p.tf, ∀ r ∈ p.regions,
    p.dt * i * p.baseline_emissions 0 r ≤ σ.R .regional_emissions (t + 1) r - σ.R .regional_emissions t r
  global_min : ∀ l, q.global_min_level = some l → ∀ t ≤ p.tf, l ≤ σ.G .global_emissions t
  regional_min : ∀ l, q.regional_min_level = some l → ∀ t ≤ p.tf, ∀ r ∈ p.regions, l ≤ σ.R .regional_emissions t r
  non_increasing : q.non_increasing_emissions_after_2100 = true → ∀ t < p.tf, 2100 < p.year t → ∀ r ∈ p.regions,
    σ.R .regional_emissions (t + 1) r ≤ σ.R .regional_emissions t r
  costs_min : ∀ t ≤ p.tf, 0 < t → ∀ r ∈ p.regions, q.rel_mitigation_costs_min_level ≤ σ.R .rel_mitigation_costs t r

/-- **C59.** The configured limits do nothing but exclude assignments: a solution under some limits that respects other
limits is a solution under those. -/
theorem C59_other_limits {q : Params} (h : Solution md p σ) (hrev : 1 ≤ p.perc_reversible_damages) (hdt : 0 ≤ p.dt)
    (hst : p.beginyear ≤ 2100) (hreg : q.effort_sharing_regime = p.effort_sharing_regime ∨ q.effort_sharing_regime = "noregime")
    (hm : Spec.Meets p q σ) : Solution md (p.withLimits q) σ := by
  obtain ⟨htr, hr, c, hb, e⟩ := solution_char.1 h
  have htfp : ∀ t r, get_TFP_value (p.withLimits q) t r = get_TFP_value p t r := fun t r =>
    TFP_congr (p := p) (p' := p.withLimits q) rfl (fun _ => rfl) rfl rfl rfl (fun _ => rfl) rfl t
  have hcal : ∀ t r, calibCapital (p.withLimits q) r t = calibCapital p r t := fun t r =>
    calibCapital_congr (p := p) (p' := p.withLimits q) rfl (fun _ => rfl) rfl rfl rfl t
  have hidx : p.year (-1) ≤ 2100 := by unfold Params.year; push_cast; linarith
  refine solution_char.2 ⟨htr, hr, ⟨?_, ?_, ?_, c.forms, ?_⟩, ?_, ⟨?_, { e.slr with }, ?_, ?_, ?_, ?_, ?_, ?_, ?_, ?_⟩⟩
  · exact { c.init with
      cap_pow := fun t ht r hr => by rw [hcal]; exact c.init.cap_pow t ht r hr
      tfp_ne := fun t ht r hr => by rw [hcal]; exact c.init.tfp_ne t ht r hr }
  · intro _ hp; exact absurd hp (not_lt.2 hrev)
  · intro _; exact hidx
  · intro h1
    rcases hreg with h2 | h2
    · exact c.allowances (h2 ▸ h1)
    · rw [show (p.withLimits q).effort_sharing_regime = q.effort_sharing_regime from rfl, h2] at h1
      exact absurd h1 (by decide)
  · intro d hd
    have := sameBounds (p := p) (p' := p.withLimits q) rfl d hd
    have hbd := hb d hd
    cases d <;> simp only [VarDecl.SameBounds] at this <;> simp only [VarDecl.BoundsOk, this] <;> exact hbd
  · exact { e.emissions with
      temperature_target := fun t ht T' hT' hy => hm.target T' hT' t ht hy
      budget := fun t ht b' hb' hy => by
        have := hm.budget b' hb' t ht hy
        show _ - (b' + (if p.perc_reversible_damages < 1 then _ else _)) ≤ 0
        rw [if_neg (not_lt.2 hrev)]
        linarith
      global_inertia := fun t ht i' hi' => hm.inertia_global i' hi' t ht
      regional_inertia := fun t ht r hr i' hi' => hm.inertia_regional i' hi' t ht r hr
      global_min_level := fun t ht l' hl' => hm.global_min l' hl' t ht
      regional_min_level := fun t ht r hr l' hl' => hm.regional_min l' hl' t ht r hr
      non_increasing := fun t ht r hr hy hf => by
        rcases Nat.eq_zero_or_pos t with rfl | h0
        · have hy' : 2100 < p.year (-1) := by
            have := hy
            rwa [Nat.cast_zero, zero_sub] at this
          exact absurd hy' (not_lt.2 hidx)
        · obtain ⟨s, rfl⟩ : ∃ s, t = s + 1 := ⟨t - 1, by omega⟩
          have hy' : 2100 < p.year (((s + 1 : ℕ) : ℤ) - 1) := hy
          rw [cast_succ_sub_one] at hy' ⊢
          exact sub_nonpos.2 (hm.non_increasing hf s ht hy' r hr)
      net_zero := fun t ht hy hf hb' => hm.net_zero hf hb' t ht hy }
  · have := e.damages
    revert this
    cases md.damage
    · intro this; exact { (this : CoacchEqs p σ) with }
    · exact id
  · exact { e.mitigation with
      rel_costs_min := fun t ht r hr => by
        show (if t > 0 then q.rel_mitigation_costs_min_level else 0) ≤ _
        have := e.mitigation.rel_costs_min t ht r hr
        split
        · next h0 => exact hm.costs_min t ht h0 r hr
        · next h0 => rwa [if_neg h0] at this }
  · have := e.trade
    revert this htr
    cases md.trade
    · exact fun _ => id
    · intro h; exact absurd rfl h
    · intro _ this; exact { (this : TradeEqs p σ) with }
  · have := e.transfer
    revert this
    cases md.transfer
    · exact id
    · intro this; exact { (this : PoolEqs p σ) with }
  · rcases hreg with h2 | h2
    · exact {
              mitigation := fun t ht r hr h1 => e.effort.mitigation t ht r hr (h2 ▸ h1)
              total := fun t ht r hr h1 => e.effort.total t ht r hr (h2 ▸ h1)
              percap := fun t ht r hr h1 => e.effort.percap t ht r hr (h2 ▸ h1) }
    · have hne : ∀ s, s ≠ "noregime" → (p.withLimits q).effort_sharing_regime ≠ s := by
        intro s hs h1; exact hs (h1.symm.trans h2)
      exact {
              mitigation := fun t ht r hr h1 => absurd h1 (hne _ (by decide))
              total := fun t ht r hr h1 => absurd h1 (hne _ (by decide))
              percap := fun t ht r hr h1 => absurd h1 (hne _ (by decide)) }
  · exact { e.economy with gross := fun t ht r hr => by rw [htfp]; exact e.economy.gross t ht r hr }
  · have := e.welfare
    revert this
    cases md.welfare <;> exact id
  · have := e.objective
    revert this
    cases md.objective <;> exact id

/-! ## C89 -/

/-- At least as ambitious everywhere: the abatement is nowhere smaller. -/
def Spec.AtLeastAsAmbitious (p : Params) (ρ σ : Env) : Prop :=
  ∀ t ≤ p.tf, ∀ r ∈ p.regions, σ.R .relative_abatement t r ≤ ρ.R .relative_abatement t r

/-- **C89.** More ambition means: lower emissions in every region, lower world and cumulative emissions, a lower
temperature. -/
theorem C89_more_ambitious (hs : Spec.AmbitionSetting md p) (hdt : 0 ≤ p.dt) (h : Solution md p σ) (h' : Solution md p τ)
    (ha : Spec.AtLeastAsAmbitious p σ τ) {t : ℕ} (ht : t ≤ p.tf) :
    (∀ r ∈ p.regions, σ.R .regional_emissions t r ≤ τ.R .regional_emissions t r) ∧
    σ.G .global_emissions t ≤ τ.G .global_emissions t ∧ σ.G .cumulative_emissions t ≤ τ.G .cumulative_emissions t ∧
    σ.G .temperature t ≤ τ.G .temperature t := by
  have hem : ∀ t ≤ p.tf, ∀ r ∈ p.regions, σ.R .regional_emissions t r ≤ τ.R .regional_emissions t r := by
    intro t ht r hr
    rcases Nat.eq_zero_or_pos t with rfl | h0
    · rw [(C32_emissions h).1 r hr, (C32_emissions h').1 r hr]
    · rw [C23_abated_baseline h ht h0 hr, (C23_baseline h ht hr).1 hs.exogenous, C23_abated_baseline h' ht h0 hr,
        (C23_baseline h' ht hr).1 hs.exogenous]
      exact mul_le_mul_of_nonneg_right (by linarith [ha t ht r hr]) (hs.policy.baseline t ht r hr)
  have hw : ∀ t ≤ p.tf, σ.G .global_emissions t ≤ τ.G .global_emissions t := by
    intro t ht
    rw [C23_global_is_sum h ht, C23_global_is_sum h' ht]
    exact List.sum_le_sum fun r hr => hem t ht r hr
  have hc : ∀ t ≤ p.tf, σ.G .cumulative_emissions t ≤ τ.G .cumulative_emissions t := by
    intro t ht
    induction t with
    | zero => rw [h.eqs.emissions.cumulative_init, h'.eqs.emissions.cumulative_init]
    | succ t ih =>
      have i1 := ih (by omega)
      have w1 := hw _ ht
      have v1 := hw t (by omega)
      rw [h.eqs.emissions.cumulative t ht, h'.eqs.emissions.cumulative t ht]
      split
      · have := mul_le_mul_of_nonneg_left (add_le_add w1 v1) hdt; linarith
      · exact add_le_add i1 (mul_le_mul_of_nonneg_left w1 hdt)
  refine ⟨hem t ht, hw t ht, hc t ht, ?_⟩
  rw [h.eqs.emissions.temperature t ht, h'.eqs.emissions.temperature t ht]
  have := mul_le_mul_of_nonneg_left (hc t ht) hs.TCRE_nonneg
  linarith

/-- **C89.** … and a lower sea level and, with climate damages, lower damages in every region. -/
theorem C89_less_damage (hadm : p.Admissible) (hs : Spec.AmbitionSetting md p) (h : Solution md p σ) (h' : Solution md p τ)
    (ha : Spec.AtLeastAsAmbitious p σ τ) {t : ℕ} (ht : t ≤ p.tf) : σ.G .total_SLR t ≤ τ.G .total_SLR t ∧
    ∀ r ∈ p.regions, σ.R .damage_costs t r ≤ τ.R .damage_costs t r := by
  have hreg := Joint.regular hs hadm.dt_pos h'
  have e := h.eqs.slr
  have hT : ∀ t ≤ p.tf, p.T0 ≤ σ.G .temperature t ∧ σ.G .temperature t ≤ τ.G .temperature t := fun t ht => by
    refine ⟨?_, (C89_more_ambitious hs hadm.dt_pos.le h h' ha ht).2.2.2⟩
    rw [h.eqs.emissions.temperature t ht]
    linarith [mul_nonneg hs.TCRE_nonneg (h.eqs.emissions.cumulative_nonneg t ht)]
  have sea := MilderClimate.sea h' hreg (T := fun t => σ.G .temperature t) (th := fun t => σ.G .slr_thermal t)
    (gs := fun t => σ.G .slr_cumgsic t) (gi := fun t => σ.G .slr_cumgis t)
    (fun t ht => ⟨hs.T0_nonneg.trans (hT t ht.le).1, (hT t ht.le).2⟩) e.thermal_init e.gsic_init e.gis_init
    e.thermal e.gsic e.gis ht
  obtain ⟨⟨a1, b1⟩, ⟨a2, b2⟩, a3, b3⟩ := sea
  have hS : 0 ≤ σ.G .total_SLR t ∧ σ.G .total_SLR t ≤ τ.G .total_SLR t := by
    rw [e.total t ht, h'.eqs.slr.total t ht]
    exact ⟨by linarith, by linarith⟩
  refine ⟨hS.2, fun r hr => ?_⟩
  cases hd : md.damage with
  | nodamage =>
    have d := h.eqs.damages
    have d' := h'.eqs.damages
    rw [hd] at d d'
    exact ((d t ht r hr).trans (d' t ht r hr).symm).le
  | COACCH =>
    have d := h.eqs.damages
    have d' := h'.eqs.damages
    rw [hd] at d d'
    have s0 : σ.G .total_SLR 0 = τ.G .total_SLR 0 := by
      rw [e.total 0 (Nat.zero_le _), h'.eqs.slr.total 0 (Nat.zero_le _), e.thermal_init, e.gsic_init, e.gis_init,
        h'.eqs.slr.thermal_init, h'.eqs.slr.gsic_init, h'.eqs.slr.gis_init]
    rw [d.total t ht r hr, d'.total t ht r hr, (d.noslr t ht r hr).2.2, (d.slr t ht r hr).2.2, (d'.noslr t ht r hr).2.2,
      (d'.slr t ht r hr).2.2, s0]
    exact (MilderClimate.parts h' hreg (Joint.sameCosts hadm hs (hs.damages hd).1) hd ht hr (hT t ht) hS).2

/-- **C89.** Two possible policies can be combined: if the limits on the world as a whole allow it, there is a solution
with the larger abatement, hence the smaller emissions, in every region and year; no carbon price exceeds the larger of
the two. -/
theorem C89_join (hadm : p.Admissible) (hs : Spec.AmbitionSetting md p) (h : Solution md p σ) (h' : Solution md p τ)
    (hw : Spec.WorldAllows p (Spec.jointAbatement σ τ)) :
    ∃ ρ, Solution md p ρ ∧ ∀ t ≤ p.tf, ∀ r ∈ p.regions,
      ρ.R .relative_abatement t r = max (σ.R .relative_abatement t r) (τ.R .relative_abatement t r) ∧
      ρ.R .regional_emissions t r = min (σ.R .regional_emissions t r) (τ.R .regional_emissions t r) ∧
      ρ.R .carbonprice t r ≤ max (σ.R .carbonprice t r) (τ.R .carbonprice t r) := by
  refine ⟨_, Drivers.build_solution hadm (Joint.ok hadm hs h h' hw), fun t ht r hr => ⟨?_, ?_, ?_⟩⟩
  · exact Joint.a_eq hadm hs h h' hr
  · exact (Path.em_eq _ _ _ _).trans (Joint.em_eq h h' hs ht hr)
  · exact (Joint.price hadm hs h h' ht hr).2

/-- The world as a whole never forbids combining two policies. -/
def Spec.Combinable (md : Modules) (p : Params) : Prop :=
  ∀ σ τ, Solution md p σ → Solution md p τ → Spec.WorldAllows p (Spec.jointAbatement σ τ)

/-- **C89.** One policy is the most ambitious of all: it has the largest abatement of all solutions in every region and
year, so the lowest emissions and the lowest temperature, at the same time. -/
theorem C89_most_ambitious (hadm : p.Admissible) (hs : Spec.AmbitionSetting md p) (hc : Spec.Combinable md p)
    (hne : ∃ σ, Solution md p σ) :
    ∃ ρ, Solution md p ρ ∧ ∀ σ, Solution md p σ → Spec.AtLeastAsAmbitious p ρ σ := by
  obtain ⟨σ₀, hσ₀⟩ := hne
  have hf : md.damage = .COACCH → ∀ r ∈ p.regions, ∀ x, FormOk x p.noslr r ∧ FormOk x p.slr r := by
    intro hd r hr x
    obtain ⟨k1, k2⟩ := hσ₀.instOk.forms hd r hr
    obtain ⟨c1, c2, -⟩ := (hs.damages hd).2 r hr
    exact ⟨c1.formOk k1 _, c2.formOk k2 _⟩
  have hB := baseBd_exogenous hadm hf hs.exogenous
  obtain ⟨K, hK, hmem⟩ := hB.exists_compact
  have hcomp : IsCompact (K ∩ {σ | Solution md p σ}) := hK.inter_right (solution_closed hadm hf)
  have hnon : (K ∩ {σ | Solution md p σ}).Nonempty := ⟨clip md p σ₀, hmem σ₀ hσ₀, clip_solution hσ₀⟩
  let F : Env → ℝ := fun σ => ∑ t ∈ Finset.range (p.tf + 1), ∑ r ∈ p.regions.toFinset, σ.R .relative_abatement t r
  have hF : Continuous F := by
    refine continuous_finsetSum _ fun t _ => continuous_finsetSum _ fun r _ => ?_
    fun_prop
  have hclip : ∀ σ, ∀ t ≤ p.tf, ∀ r ∈ p.regions, (clip md p σ).R .relative_abatement t r = σ.R .relative_abatement t r :=
    fun σ t ht r hr => clip_R ht hr trivial
  obtain ⟨ρ, hρ, hmax⟩ := hcomp.exists_isMaxOn hnon hF.continuousOn
  refine ⟨ρ, hρ.2, fun σ hσ => ?_⟩
  obtain ⟨μ, hμ, he⟩ := C89_join hadm hs hρ.2 hσ (hc ρ σ hρ.2 hσ)
  have hle : F μ ≤ F ρ := by
    have h1 : F (clip md p μ) = F μ := Finset.sum_congr rfl fun t ht => Finset.sum_congr rfl fun r hr =>
      hclip μ t (by simpa [Nat.lt_succ_iff] using ht) r (by simpa using hr)
    rw [← h1]
    exact hmax ⟨hmem μ hμ, clip_solution hμ⟩
  by_contra hcon
  unfold Spec.AtLeastAsAmbitious at hcon
  push Not at hcon
  obtain ⟨t, ht, r, hr, hlt⟩ := hcon
  refine absurd hle (not_le.2 ?_)
  have hge : ∀ s ∈ Finset.range (p.tf + 1), ∀ q ∈ p.regions.toFinset, ρ.R .relative_abatement s q ≤ μ.R .relative_abatement s q := by
    intro s hs q hq
    rw [(he s (by simpa [Nat.lt_succ_iff] using hs) q (by simpa using hq)).1]
    exact le_max_left _ _
  refine Finset.sum_lt_sum (fun s hs => Finset.sum_le_sum fun q hq => hge s hs q hq) ⟨t, by simpa [Nat.lt_succ_iff] using ht, ?_⟩
  refine Finset.sum_lt_sum (fun q hq => hge t (by simpa [Nat.lt_succ_iff] using ht) q hq) ⟨r, by simpa using hr, ?_⟩
  rw [(he t ht r hr).1]
  exact lt_max_of_lt_right hlt

/-- The parameters with the given temperature target, carbon budget and net-zero requirement. -/
abbrev Params.aiming (p : Params) (T b : Option ℝ) (nz : Bool) : Params :=
  { p with temperature_target := T, budget := b, no_pos_emissions_after_budget_year := nz }

/-- The temperature, the cumulative and the world emissions from 2100 on meet the targets. -/
structure Spec.MeetsTargets (p : Params) (T b : Option ℝ) (nz : Bool) (σ : Env) : Prop where
  target : ∀ T', T = some T' → ∀ t ≤ p.tf, 2100 ≤ p.year t → σ.G .temperature t ≤ T'
  budget : ∀ b', b = some b' → ∀ t ≤ p.tf, 2100 ≤ p.year t → σ.G .cumulative_emissions t ≤ b'
  net_zero : nz = true → b ≠ none → ∀ t ≤ p.tf, 2100 ≤ p.year t → σ.G .global_emissions t ≤ 0

/-- **C89.** A solution of the run with targets is a solution of the run without them that meets the targets, and
conversely. -/
theorem C89_meets_iff (hs : Spec.AmbitionSetting md p) (hdt : 0 ≤ p.dt) {T b : Option ℝ} {nz : Bool} :
    Solution md (p.aiming T b nz) σ ↔ Solution md (p.aiming none none false) σ ∧ Spec.MeetsTargets p T b nz σ := by
  have hrev := hs.policy.reversible
  have hst := hs.policy.start
  constructor
  · intro h
    refine ⟨C59_still_feasible (p := p.aiming T b nz) (q := p.aiming none none false) h ?_ hdt
      (fun r hr => hs.policy.baseline 0 (Nat.zero_le _) r hr), ?_, ?_, ?_⟩
    · exact
        { target := fun T' h => by cases h
          budget := fun b' h => by cases h
          inertia_global := fun b h => ⟨b, h, le_rfl⟩
          inertia_regional := fun b h => ⟨b, h, le_rfl⟩
          global_min := fun b h => ⟨b, h, le_rfl⟩
          regional_min := fun b h => ⟨b, h, le_rfl⟩
          non_increasing := id
          net_zero := fun h => by cases h
          costs_min := le_rfl
          regime := .inl rfl }
    · exact fun T' hT t ht hy => h.eqs.emissions.temperature_target t ht T' hT hy
    · intro b' hb t ht hy
      have := h.eqs.emissions.budget t ht b' hb hy
      rw [if_neg (not_lt.2 hrev)] at this
      linarith
    · exact fun hn hb t ht hy => h.eqs.emissions.net_zero t ht hy hn hb
  · rintro ⟨h, hm⟩
    have e := h.eqs
    refine C59_other_limits (p := p.aiming none none false) (q := p.aiming T b nz) h hrev hdt hst (.inl rfl) ?_
    exact
      { target := hm.target
        budget := hm.budget
        net_zero := hm.net_zero
        inertia_global := fun i hi t ht => e.emissions.global_inertia t ht i hi
        inertia_regional := fun i hi t ht r hr => e.emissions.regional_inertia t ht r hr i hi
        global_min := fun l hl t ht => e.emissions.global_min_level t ht l hl
        regional_min := fun l hl t ht r hr => e.emissions.regional_min_level t ht r hr l hl
        non_increasing := fun hn t ht hy r hr => by
          have i1 := e.emissions.non_increasing (t + 1) ht r hr (by rw [cast_succ_sub_one]; exact hy) hn
          rw [cast_succ_sub_one] at i1
          exact sub_nonpos.1 i1
        costs_min := fun t ht h0 r hr => by
          have := e.mitigation.rel_costs_min t ht r hr
          rwa [if_pos h0] at this }

/-- **C89.** Which targets can be met is decided by one policy: there is a solution of the run without targets such that,
whatever the targets, the run with them has a solution if and only if that one meets them. -/
theorem C89_attainable (hadm : (p.aiming none none false).Admissible) (hs : Spec.AmbitionSetting md (p.aiming none none false))
    (hc : Spec.Combinable md (p.aiming none none false)) (hne : ∃ σ, Solution md (p.aiming none none false) σ) :
    ∃ ρ, Solution md (p.aiming none none false) ρ ∧ ∀ T b nz,
      (∃ σ, Solution md (p.aiming T b nz) σ) ↔ Spec.MeetsTargets p T b nz ρ := by
  obtain ⟨ρ, hρ, hmax⟩ := C89_most_ambitious hadm hs hc hne
  have hdt : 0 ≤ p.dt := hadm.dt_pos.le
  refine ⟨ρ, hρ, fun T b nz => ⟨?_, fun hm => ⟨ρ, (C89_meets_iff (p := p.aiming none none false) hs hdt).2
    ⟨hρ, ⟨hm.target, hm.budget, hm.net_zero⟩⟩⟩⟩⟩
  rintro ⟨σ, hσ⟩
  obtain ⟨h, hm⟩ := (C89_meets_iff (p := p.aiming none none false) hs hdt).1 hσ
  have low := fun {t} (ht : t ≤ p.tf) => C89_more_ambitious hs hdt hρ h (hmax σ h) (t := t) ht
  exact ⟨fun T' hT t ht hy => (low ht).2.2.2.trans (hm.target T' hT t ht hy),
    fun b' hb t ht hy => (low ht).2.2.1.trans (hm.budget b' hb t ht hy),
    fun hn hb t ht hy => (low ht).2.1.trans (hm.net_zero hn hb t ht hy)⟩

/-- **C89.** Targets do not compete: a temperature target that can be met and a carbon budget that can be met can be met
together. -/
theorem C89_jointly (hadm : (p.aiming none none false).Admissible) (hs : Spec.AmbitionSetting md (p.aiming none none false))
    (hc : Spec.Combinable md (p.aiming none none false)) {T b : ℝ} {nz : Bool}
    (h : Solution md (p.aiming (some T) none false) σ) (h' : Solution md (p.aiming none (some b) nz) τ) :
    ∃ μ, Solution md (p.aiming (some T) (some b) nz) μ := by
  have hdt : 0 ≤ p.dt := hadm.dt_pos.le
  obtain ⟨ρ, hρ, hiff⟩ := C89_attainable hadm hs hc
    ⟨σ, ((C89_meets_iff (p := p.aiming none none false) hs hdt).1 h).1⟩
  have m1 := (hiff _ _ _).1 ⟨σ, h⟩
  have m2 := (hiff _ _ _).1 ⟨τ, h'⟩
  exact (hiff _ _ _).2 ⟨m1.target, m2.budget, m2.net_zero⟩

/-- **C89.** There is a lowest temperature target that can be met, and every higher one can be met (if the horizon reaches
2100). -/
theorem C89_lowest_target (hadm : (p.aiming none none false).Admissible)
    (hs : Spec.AmbitionSetting md (p.aiming none none false)) (hc : Spec.Combinable md (p.aiming none none false))
    (hne : ∃ σ, Solution md (p.aiming none none false) σ) (hy : 2100 ≤ p.year p.tf) :
    ∃ T₀, ∀ T, (∃ σ, Solution md (p.aiming (some T) none false) σ) ↔ T₀ ≤ T := by
  obtain ⟨ρ, hρ, hiff⟩ := C89_attainable hadm hs hc hne
  classical
  let S := (Finset.range (p.tf + 1)).filter fun t : ℕ => 2100 ≤ p.year t
  have hS : S.Nonempty := ⟨p.tf, by simp [S, hy]⟩
  refine ⟨S.sup' hS fun t => ρ.G .temperature t, fun T => ?_⟩
  rw [hiff, Finset.sup'_le_iff]
  constructor
  · intro hm t ht
    have ht' : t ≤ p.tf ∧ 2100 ≤ p.year t := by simpa [S, Nat.lt_succ_iff] using ht
    exact hm.target T rfl t ht'.1 ht'.2
  · intro hm
    refine ⟨fun T' hT t ht hy => ?_, fun b' hb => (by cases hb), fun hn => (by cases hn)⟩
    cases hT
    exact hm t (by simp only [S, Finset.mem_filter, Finset.mem_range]; exact ⟨Nat.lt_succ_of_le ht, hy⟩)

/-! ## When the world as a whole allows every combination -/

/-- cumulative emissions if the world emits `W` -/
noncomputable def Spec.accumulated (p : Params) (W : ℕ → ℝ) : ℕ → ℝ
  | 0 => 0
  | t + 1 => Spec.accumulated p W t + (if p.cumulative_emissions_trapz then p.dt * (W (t + 1) + W t) / 2 else p.dt * W (t + 1))

/-- A floor under the emissions of every region, from the regional limits alone, that the limits of the world as a whole
respect. -/
structure Spec.RegionalFloor (p : Params) (f : ℕ → String → ℝ) : Prop where
  /-- the emissions of the first year, the minimum level, the inertia limit, or abatement of 2.5 times the baseline -/
  floor : ∀ t ≤ p.tf, ∀ r ∈ p.regions, (t = 0 ∧ f t r ≤ p.baseline_emissions 0 r) ∨
    (∃ m, p.regional_min_level = some m ∧ f t r ≤ m) ∨
    (∃ i, p.inertia_regional = some i ∧ f t r ≤ p.baseline_emissions 0 r * (1 + t * p.dt * i)) ∨
    f t r ≤ -(3 / 2) * p.baseline_emissions t r
  cumulative : ∀ t ≤ p.tf, 0 ≤ Spec.accumulated p (fun s => (p.regions.map fun r => f s r).sum) t
  global_min : ∀ l, p.global_min_level = some l → ∀ t ≤ p.tf, l ≤ (p.regions.map fun r => f t r).sum
  inertia : ∀ i, p.inertia_global = some i → ∃ j, p.inertia_regional = some j ∧ i ≤ j

theorem Joint.floor_le {f : ℕ → String → ℝ} (hs : Spec.AmbitionSetting md p) (hf : Spec.RegionalFloor p f) (h : Solution md p σ)
    {t : ℕ} (ht : t ≤ p.tf) {r : String} (hr : r ∈ p.regions) : f t r ≤ σ.R .regional_emissions t r := by
  have h0 := (C32_emissions h).1 r hr
  rcases hf.floor t ht r hr with ⟨rfl, i⟩ | ⟨m, hm, i⟩ | ⟨j, hj, i⟩ | i
  · rw [h0]; exact i
  · exact i.trans (h.eqs.emissions.regional_min_level t ht r hr m hm)
  · refine i.trans ?_
    clear i
    induction t with
    | zero => rw [h0]; simp
    | succ t ih =>
      have := h.eqs.emissions.regional_inertia t ht r hr j hj
      have := ih (by omega)
      push_cast
      linarith
  · refine i.trans ?_
    rcases Nat.eq_zero_or_pos t with rfl | hp
    · rw [h0]; linarith [hs.policy.baseline 0 ht r hr]
    · rw [C23_abated_baseline h ht hp hr, (C23_baseline h ht hr).1 hs.exogenous]
      exact mul_le_mul_of_nonneg_right (by linarith [(h.abatement_bounds ht hr).2]) (hs.policy.baseline t ht r hr)

/-- **C89.** Every combination is allowed if the limits for the regions are the stricter ones: they keep the emissions
above a floor that leaves world and cumulative emissions within their limits. -/
theorem C89_combinable {f : ℕ → String → ℝ} (hdt : 0 ≤ p.dt) (hs : Spec.AmbitionSetting md p) (hf : Spec.RegionalFloor p f) :
    Spec.Combinable md p := by
  intro σ τ h h'
  have hfl : ∀ t ≤ p.tf, ∀ r ∈ p.regions, f t r ≤ Spec.pathEmissions p (Spec.jointAbatement σ τ) t r := by
    intro t ht r hr
    rw [Joint.em_eq h h' hs ht hr]
    exact le_min (Joint.floor_le hs hf h ht hr) (Joint.floor_le hs hf h' ht hr)
  have hw : ∀ t ≤ p.tf, (p.regions.map fun r => f t r).sum ≤ Spec.pathWorld p (Spec.jointAbatement σ τ) t := fun t ht =>
    List.sum_le_sum fun r hr => hfl t ht r hr
  refine ⟨fun t ht => (hf.cumulative t ht).trans ?_, fun l hl t ht => (hf.global_min l hl t ht).trans (hw t ht), ?_⟩
  · induction t with
    | zero => exact le_rfl
    | succ t ih =>
      have i1 := ih (by omega)
      have w1 := hw _ ht
      have v1 := hw t (by omega)
      rw [Spec.accumulated, Spec.pathCumulative]
      split
      · have := mul_le_mul_of_nonneg_left (add_le_add w1 v1) hdt; linarith
      · exact add_le_add i1 (mul_le_mul_of_nonneg_left w1 hdt)
  · intro i hi t ht
    obtain ⟨j, hj, hij⟩ := hf.inertia i hi
    have key : ∀ r ∈ p.regions, p.dt * i * p.baseline_emissions 0 r + Spec.pathEmissions p (Spec.jointAbatement σ τ) t r ≤
        Spec.pathEmissions p (Spec.jointAbatement σ τ) (t + 1) r := by
      intro r hr
      rw [Joint.em_eq h h' hs ht hr, Joint.em_eq h h' hs (t := t) ht.le hr]
      have i1 := h.eqs.emissions.regional_inertia t ht r hr j hj
      have i2 := h'.eqs.emissions.regional_inertia t ht r hr j hj
      have hb := hs.policy.baseline 0 (Nat.zero_le _) r hr
      have : p.dt * i * p.baseline_emissions 0 r ≤ p.dt * j * p.baseline_emissions 0 r := by gcongr
      refine le_min ?_ ?_
      · linarith [min_le_left (σ.R .regional_emissions t r) (τ.R .regional_emissions t r)]
      · linarith [min_le_right (σ.R .regional_emissions t r) (τ.R .regional_emissions t r)]
    have := List.sum_le_sum (l := p.regions) key
    rw [List.sum_map_add, List.sum_map_mul_left] at this
    unfold Spec.pathWorld
    linarith

namespace Ex

/-- The world of `ex` with emissions that must not become negative. -/
noncomputable abbrev amb (T b : Option ℝ) (nz : Bool) : Params :=
  { bq T b nz with regional_min_level := some 0, global_min_level := some 0 }

variable {w : WelfareModule} {o : ObjectiveModule} {T b : Option ℝ} {nz : Bool}

theorem amb_admissible : (amb T b nz).Admissible := { bq_admissible (T := T) (b := b) (nz := nz) with }

theorem amb_zero (t : ℕ) : Spec.pathCumulative (amb T b nz) (fun _ _ => 0) t = Spec.pathCumulative (bq T b nz) (fun _ _ => 0) t := by
  induction t with
  | zero => rfl
  | succ t ih => rw [Spec.pathCumulative, Spec.pathCumulative, ih]; rfl

theorem amb_ambition {d : DamageModule} : Spec.AmbitionSetting (md0 d w o) (amb T b nz) where
  policy := ⟨rfl, rfl, le_rfl, le_rfl, by norm_num [ex], by simp [ex]⟩
  exogenous := rfl
  mac := { (bq_convex (w := w) (o := o) (T := T) (b := b) (nz := nz)).mac with }
  rate_le := (bq_convex (w := w) (o := o) (T := T) (b := b) (nz := nz)).rate_le
  T0_nonneg := (bq_convex (w := w) (o := o) (T := T) (b := b) (nz := nz)).T0_nonneg
  TCRE_nonneg := (bq_convex (w := w) (o := o) (T := T) (b := b) (nz := nz)).TCRE_nonneg
  melt := by
    have hT : ∀ t < 3, 1 ≤ Spec.pathTemperature (amb T b nz) (fun _ _ => 0) t ∧
        Spec.pathTemperature (amb T b nz) (fun _ _ => 0) t ≤ 6 := by
      intro t ht
      unfold Spec.pathTemperature
      rw [amb_zero, bq_zero_cum (by omega)]
      interval_cases t <;> norm_num [ex]
    have hdt : (amb T b nz).dt = 40 := rfl
    refine ⟨by rw [hdt]; norm_num, ?_, ?_, ?_⟩
    iterate 3
      intro t ht
      have := hT t ht
      rw [hdt] at *
      norm_num at this ⊢; linarith
  damages := by
    intro _
    refine ⟨by norm_num [ex], fun r hr => ?_⟩
    refine ⟨?_, ?_, ?_⟩
    · simp only [ex, List.mem_cons, List.not_mem_nil, or_false] at hr
      rcases hr with rfl | rfl <;> constructor <;> simp [ex] <;> norm_num
    · simp only [ex, List.mem_cons, List.not_mem_nil, or_false] at hr
      rcases hr with rfl | rfl <;> constructor <;> simp [ex] <;> norm_num
    · have hy : ((x0 fun _ => 0).a = fun t _ => aPath t) ∧ (x0 fun _ => 0).base = none := ⟨rfl, rfl⟩
      have e : Spec.pathSeaLevel (amb T b nz) (fun _ _ => 0) 0 = (x0 fun _ => 0).slr (ex "noregime" 0 none) 0 := by
        rw [Spec.pathSeaLevel, Spec.pathSea, Drivers.slr, Drivers.th, Drivers.gs, Drivers.gi]
        simp only [SeaLevelRise.slr_thermal_expansion_init, SeaLevelRise.thermal_init, SeaLevelRise.thermal_adjust_rate,
          SeaLevelRise.thermal_equil, ex]
        norm_num
      rw [e]
      show 1 * (formVal ((x0 fun _ => 0).slr (ex "noregime" 0 none) 0) (ex "noregime" 0 none).slr r -
        formVal 0 (ex "noregime" 0 none).slr r) ≤ 1 / 2
      simp only [ex, List.mem_cons, List.not_mem_nil, or_false] at hr
      rcases hr with rfl | rfl
      · have := slr_le (regime := "noregime") (al := 0) (conv := none) _ hy 0 (by norm_num)
        rw [formS_A, formS_A]; linarith
      · have b1 := formS_B_range (regime := "noregime") (al := 0) (conv := none) ((x0 fun _ => 0).slr (ex "noregime" 0 none) 0)
        have b2 := formS_B_range (regime := "noregime") (al := 0) (conv := none) 0
        linarith [b1.2, b2.1]

theorem amb_floor : Spec.RegionalFloor (amb T b nz) fun _ _ => 0 where
  floor := fun _ _ _ _ => .inr (.inl ⟨0, rfl, le_rfl⟩)
  cumulative := by
    intro t ht
    refine le_of_eq ?_
    clear ht
    induction t with
    | zero => rfl
    | succ t ih => rw [Spec.accumulated, ← ih]; simp
  global_min := by intro l hl t ht; cases hl; simp
  inertia := fun i hi => ⟨i, hi, le_rfl⟩

/-- The solution of `ex` does not have negative emissions. -/
theorem amb_sol {d : DamageModule} (hT : T = none ∨ T = some 2) (hb : b = none ∨ b = some 1600) :
    Solution (md0 d w o) (amb T b nz) ((x0 fun _ => 0).env (md0 d w o) (ex "noregime" 0 none)) := by
  have h := bq_sol_dam d (w := w) (o := o) (nz := nz) hT hb
  have e := h.eqs
  have hem : ∀ t ≤ 3, ∀ r ∈ (bq T b nz).regions, 0 ≤ ((x0 fun _ => 0).env (md0 d w o) (ex "noregime" 0 none)).R .regional_emissions t r := by
    intro t ht r hr
    rcases Nat.eq_zero_or_pos t with rfl | h0
    · rw [(C32_emissions h).1 r hr]; norm_num [ex]
    · rw [C23_abated_baseline h ht h0 hr, (C23_baseline h ht hr).1 rfl]
      refine mul_nonneg (sub_nonneg.2 ?_) (by norm_num [ex])
      show aPath t ≤ 1
      unfold aPath
      split_ifs <;> norm_num
  refine C59_other_limits (p := bq T b nz) (q := amb T b nz) h le_rfl (by norm_num [ex]) (by norm_num [ex]) (.inl rfl) ?_
  exact
    { target := fun T hT t ht hy => e.emissions.temperature_target t ht T hT hy
      budget := fun b' hb t ht hy => by
        have := e.emissions.budget t ht b' hb hy
        rw [if_neg (by norm_num [ex])] at this
        linarith
      net_zero := fun hn hb t ht hy => e.emissions.net_zero t ht hy hn hb
      inertia_global := fun i hi t ht => e.emissions.global_inertia t ht i hi
      inertia_regional := fun i hi t ht r hr => e.emissions.regional_inertia t ht r hr i hi
      global_min := fun l hl t ht => by
        cases hl
        rw [C23_global_is_sum h ht]
        exact List.sum_nonneg (by simpa using hem t ht)
      regional_min := fun l hl t ht r hr => by cases hl; exact hem t ht r hr
      non_increasing := fun hn t ht hy r hr => by
        have i1 := e.emissions.non_increasing (t + 1) ht r hr (by rw [cast_succ_sub_one]; exact hy) hn
        rw [cast_succ_sub_one] at i1
        exact sub_nonpos.1 i1
      costs_min := fun t ht h0 r hr => by
        have := e.mitigation.rel_costs_min t ht r hr
        rwa [if_pos h0] at this }

theorem amb_combinable {d : DamageModule} : Spec.Combinable (md0 d w o) (amb T b nz) :=
  C89_combinable (by norm_num [ex]) amb_ambition amb_floor

/-- The most ambitious policy exists; it abates at least fully in 2100. -/
example (d : DamageModule) (w : WelfareModule) (o : ObjectiveModule) : ∃ ρ, Solution (md0 d w o) (amb none none false) ρ ∧
    1 ≤ ρ.R .relative_abatement 2 "A" ∧
    ∀ σ, Solution (md0 d w o) (amb none none false) σ → Spec.AtLeastAsAmbitious (amb none none false) ρ σ := by
  obtain ⟨ρ, hρ, hm⟩ := C89_most_ambitious (md := md0 d w o) amb_admissible amb_ambition amb_combinable
    ⟨_, amb_sol (.inl rfl) (.inl rfl)⟩
  refine ⟨ρ, hρ, ?_, hm⟩
  have := hm _ (amb_sol (.inl rfl) (.inl rfl)) 2 (by norm_num [ex]) "A" (by simp [ex])
  refine le_trans (le_of_eq ?_) this
  show 1 = aPath 2
  norm_num [aPath]

/-- It decides which targets can be met … -/
example (d : DamageModule) (w : WelfareModule) (o : ObjectiveModule) : ∃ ρ, Solution (md0 d w o) (amb none none false) ρ ∧ ∀ T b nz,
    (∃ σ, Solution (md0 d w o) (amb T b nz) σ) ↔ Spec.MeetsTargets (amb none none false) T b nz ρ :=
  C89_attainable (p := amb none none false) amb_admissible amb_ambition amb_combinable ⟨_, amb_sol (.inl rfl) (.inl rfl)⟩

/-- … and there is a lowest temperature target, at most 2 degrees. -/
example (d : DamageModule) (w : WelfareModule) (o : ObjectiveModule) : ∃ T₀ ≤ 2, ∀ T,
    (∃ σ, Solution (md0 d w o) (amb (some T) none false) σ) ↔ T₀ ≤ T := by
  obtain ⟨T₀, h⟩ := C89_lowest_target (md := md0 d w o) (p := amb none none false) amb_admissible amb_ambition
    amb_combinable ⟨_, amb_sol (.inl rfl) (.inl rfl)⟩ (by simp [Params.year, ex]; norm_num)
  exact ⟨T₀, (h 2).1 ⟨_, amb_sol (.inr rfl) (.inl rfl)⟩, h⟩

example (d : DamageModule) (w : WelfareModule) (o : ObjectiveModule) : ∃ μ, Solution (md0 d w o) (amb (some 2) (some 1600) true) μ :=
  C89_jointly (p := amb none none false) amb_admissible amb_ambition amb_combinable (amb_sol (.inr rfl) (.inl rfl))
    (amb_sol (.inl rfl) (.inr rfl))

/-- The most ambitious policy has, in every year, the lowest damages in both regions. -/
example (w : WelfareModule) (o : ObjectiveModule) : ∃ ρ, Solution (md0 .COACCH w o) (amb none none false) ρ ∧
    ∀ σ, Solution (md0 .COACCH w o) (amb none none false) σ → ∀ t ≤ 3, ∀ r ∈ ["A", "B"],
      ρ.R .damage_costs t r ≤ σ.R .damage_costs t r := by
  obtain ⟨ρ, hρ, hm⟩ := C89_most_ambitious (md := md0 .COACCH w o) amb_admissible amb_ambition amb_combinable
    ⟨_, amb_sol (.inl rfl) (.inl rfl)⟩
  exact ⟨ρ, hρ, fun σ h t ht r hr => (C89_less_damage amb_admissible amb_ambition hρ h (hm σ h) ht).2 r hr⟩

end Ex
end Mimosa
