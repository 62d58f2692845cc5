import Verif.Props.Emissions
import Verif.Props.Mitigation
import Verif.Props.Trade
import Verif.Props.Climate
import Verif.Lib.Capital
import Verif.Lib.Example2

/-!
# C32: the initial year is the baseline.  C54: a solution is determined by its abatement path.
-/

set_option linter.unusedVariables false

namespace Mimosa
variable {md : Modules} {p : Params} {σ τ : Env}

/-! ## C32 -/

/-- Ordinary abatement-cost data: a positive marginal cost curve. -/
structure Spec.MacData (p : Params) : Prop where
  gamma_pos : 0 < p.MAC_gamma
  beta_pos : 0 < p.MAC_beta
  scaling_pos : ∀ r ∈ p.regions, 0 < p.MAC_scaling_factor r
  lot : -1 < p.LOT_rate

/-- In the first year there is no abatement, no carbon price and no abatement cost. -/
theorem C32_no_abatement (h : Solution md p σ) (hm : Spec.MacData p) {r : String} (hr : r ∈ p.regions) :
    σ.R .relative_abatement 0 r = 0 ∧ σ.R .carbonprice 0 r = 0 ∧ σ.R .area_under_MAC 0 r = 0 := by
  have h0 : (0 : ℕ) ≤ p.tf := Nat.zero_le _
  have hp := h.eqs.mitigation.carbonprice_init r hr
  have hl := (C31_positive h hm.lot h0).2.2
  have ha : σ.R .relative_abatement 0 r = 0 := by
    rw [C30_price_determines_abatement h hm.beta_pos hm.gamma_pos h0 hr (hm.scaling_pos r hr) hl, hp,
      zero_div, Real.zero_rpow]
    have := hm.beta_pos
    positivity
  refine ⟨ha, hp, ?_⟩
  rw [(h.eqs.mitigation.area 0 h0 r hr).2]
  simp only [acVal]
  rw [ha, Real.zero_rpow (by linarith [hm.beta_pos])]
  simp

/-- Emissions of the first year are those of the data, in each region and in total; cumulative emissions
start at zero and temperature at its configured initial value. -/
theorem C32_emissions (h : Solution md p σ) :
    (∀ r ∈ p.regions, σ.R .regional_emissions 0 r = p.baseline_emissions 0 r) ∧
    σ.G .global_emissions 0 = (p.regions.map fun r => p.baseline_emissions 0 r).sum ∧
    σ.G .cumulative_emissions 0 = 0 ∧ σ.G .temperature 0 = p.T0 :=
  ⟨h.eqs.emissions.regional_emissions_init, h.eqs.emissions.global_emissions_init,
    h.eqs.emissions.cumulative_init, h.eqs.emissions.temperature_init⟩

/-- There are no damages and no transfers yet. -/
theorem C32_no_damages_no_transfers (h : Solution md p σ) {r : String} (hr : r ∈ p.regions) :
    σ.R .damage_costs 0 r = 0 ∧ (md.transfer = .globaldamagepool → σ.R .financial_transfer 0 r = 0) :=
  ⟨(C40_zero_at_start h hr).2, fun hf => (h.poolEqs hf).first_year r hr⟩

/-- Without emission trade, net GDP in the first year is the baseline GDP; with emission trade this holds for
the world as a whole. -/
theorem C32_gdp (h : Solution md p σ) (hm : Spec.MacData p) :
    (md.trade = .notrade → ∀ r ∈ p.regions, σ.R .mitigation_costs 0 r = 0 ∧
      σ.R .GDP_gross 0 r = p.baseline_GDP 0 r ∧ σ.R .GDP_net 0 r = p.baseline_GDP 0 r) ∧
    (p.regions.map fun r => σ.R .GDP_net 0 r).sum = (p.regions.map fun r => p.baseline_GDP 0 r).sum := by
  have h0 : (0 : ℕ) ≤ p.tf := Nat.zero_le _
  constructor
  · intro htr r hr
    have hg := h.eqs.economy.gross_init r hr
    have hc : σ.R .mitigation_costs 0 r = 0 := by
      have h1 := (h.eqs.mitigation.mitigation_costs 0 h0 r hr).2
      have h2 := (h.eqs.mitigation.area 0 h0 r hr).2
      rw [← h2, (C32_no_abatement h hm hr).2.2, htr] at h1
      simpa [costBalanceVal] using h1
    refine ⟨hc, hg, ?_⟩
    have hd := (C32_no_damages_no_transfers h hr).1
    have ht : transferVal σ md.transfer 0 r = 0 := by
      cases hf : md.transfer
      · rfl
      · exact (h.poolEqs hf).first_year r hr
    have h3 := h.eqs.economy.net 0 h0 r hr
    rw [hd, hc, ht, hg] at h3
    rw [h3]; simp
  · have h3 := C36_world_net h h0
    rw [h3]
    have e1 : p.sumR (fun r => if p.ignore_damages then 0 else σ.R .damage_costs 0 r * σ.R .GDP_gross 0 r) =
        p.sumR fun _ => 0 := sumR_congr fun r hr => by
      rw [(C40_zero_at_start h hr).2]; simp
    have e2 : p.sumR (fun r => σ.R .area_under_MAC 0 r) = p.sumR fun _ => 0 :=
      sumR_congr fun r hr => (C32_no_abatement h hm hr).2.2
    have e3 : p.sumR (fun r => σ.R .GDP_gross 0 r) = p.sumR fun r => p.baseline_GDP 0 r :=
      sumR_congr fun r hr => h.eqs.economy.gross_init r hr
    rw [sumR_zero] at e1 e2
    show p.sumR _ - p.sumR _ - p.sumR _ = p.sumR _
    rw [e1, e2, e3]; ring

/-- Hence, without trade, also the carbon-intensity baseline starts at the baseline emissions, and there are no
emission reductions in the first year. -/
theorem C32_baseline (h : Solution md p σ) (hm : Spec.MacData p) (htr : md.trade = .notrade) {r : String}
    (hr : r ∈ p.regions) (hg : p.baseline_GDP 0 r ≠ 0) :
    σ.R .baseline 0 r = p.baseline_emissions 0 r ∧ σ.R .regional_emission_reduction 0 r = 0 := by
  have h0 : (0 : ℕ) ≤ p.tf := Nat.zero_le _
  have hb : σ.R .baseline 0 r = p.baseline_emissions 0 r := by
    have := C23_baseline h h0 hr
    cases hc : p.use_carbon_intensity_for_baseline with
    | false => exact this.1 hc
    | true =>
      rw [this.2 hc, ((C32_gdp h hm).1 htr r hr).2.2, div_mul_cancel₀ _ hg]
  refine ⟨hb, ?_⟩
  rw [(C23_reductions h h0).1 r hr, hb, (C32_emissions h).1 r hr, sub_self]

theorem Ex.macData {regime : String} {al : ℝ} {conv : Option ℝ} : Spec.MacData (Ex.ex regime al conv) where
  gamma_pos := by norm_num [Ex.ex]
  beta_pos := by norm_num [Ex.ex]
  scaling_pos := by simp [Ex.ex]
  lot := by norm_num [Ex.ex]

example := C32_no_abatement Ex.sol0 Ex.macData (r := "A") (by simp [Ex.p0, Ex.ex])
example := C32_emissions Ex.sol0
example := C32_no_damages_no_transfers Ex.solPool (r := "A") (by simp [Ex.pTot, Ex.ex])
example := (C32_gdp Ex.sol0 Ex.macData).1 rfl "A" (by simp [Ex.p0, Ex.ex])
example := (C32_gdp (Ex.solTrade .COACCH .welfare_loss_minimising .utility (conv := none)) Ex.macData).2
example := C32_baseline Ex.sol0 Ex.macData rfl (r := "A") (by simp [Ex.p0, Ex.ex]) (by simp [Ex.p0, Ex.ex])

/-! ## C54 -/

/-- The two assignments have the same relative abatement everywhere. -/
def Spec.SameAbatement (p : Params) (σ τ : Env) : Prop :=
  ∀ t ≤ p.tf, ∀ r ∈ p.regions, σ.R .relative_abatement t r = τ.R .relative_abatement t r

namespace SameBase
section
variable (h : Solution md p σ) (h' : Solution md p τ) (ha : Spec.SameAbatement p σ τ)
  (hb : ∀ t ≤ p.tf, ∀ r ∈ p.regions, σ.R .baseline t r = τ.R .baseline t r)
include h h' ha hb

/-- Emissions. -/
theorem emissions {t : ℕ} (ht : t ≤ p.tf) :
    (∀ r ∈ p.regions, σ.R .regional_emissions t r = τ.R .regional_emissions t r ∧
      σ.R .baseline t r = τ.R .baseline t r ∧
      σ.R .regional_emission_reduction t r = τ.R .regional_emission_reduction t r) ∧
    σ.G .global_emissions t = τ.G .global_emissions t := by
  have key : ∀ r ∈ p.regions, σ.R .regional_emissions t r = τ.R .regional_emissions t r ∧
      σ.R .baseline t r = τ.R .baseline t r := by
    intro r hr
    have hb := hb t ht r hr
    refine ⟨?_, hb⟩
    rcases Nat.eq_zero_or_pos t with rfl | h0
    · rw [(C32_emissions h).1 r hr, (C32_emissions h').1 r hr]
    · rw [C23_abated_baseline h ht h0 hr, C23_abated_baseline h' ht h0 hr, ha t ht r hr, hb]
  refine ⟨fun r hr => ⟨(key r hr).1, (key r hr).2, ?_⟩, ?_⟩
  · rw [(C23_reductions h ht).1 r hr, (C23_reductions h' ht).1 r hr, (key r hr).1, (key r hr).2]
  · rw [C23_global_is_sum h ht, C23_global_is_sum h' ht]
    exact sumR_congr fun r hr => (key r hr).1

/-- Cumulative emissions, temperature and sea-level rise. -/
theorem climate {t : ℕ} (ht : t ≤ p.tf) :
    σ.G .cumulative_emissions t = τ.G .cumulative_emissions t ∧
    σ.G .temperature t = τ.G .temperature t ∧ σ.G .slr_thermal t = τ.G .slr_thermal t ∧
    σ.G .slr_cumgsic t = τ.G .slr_cumgsic t ∧ σ.G .slr_cumgis t = τ.G .slr_cumgis t ∧
    σ.G .total_SLR t = τ.G .total_SLR t := by
  have e := h.eqs
  have e' := h'.eqs
  have hcum : ∀ t ≤ p.tf, σ.G .cumulative_emissions t = τ.G .cumulative_emissions t := by
    intro t
    induction t with
    | zero => intro _; exact e.emissions.cumulative_init.trans e'.emissions.cumulative_init.symm
    | succ t ih =>
      intro ht
      rw [e.emissions.cumulative t ht, e'.emissions.cumulative t ht, ih (by omega),
        (emissions h h' ha hb (t := t) (by omega)).2, (emissions h h' ha hb ht).2]
  have hT : ∀ t ≤ p.tf, σ.G .temperature t = τ.G .temperature t := by
    intro t ht
    rw [e.emissions.temperature t ht, e'.emissions.temperature t ht, hcum t ht]
  have hs : ∀ t ≤ p.tf, σ.G .slr_thermal t = τ.G .slr_thermal t ∧
      σ.G .slr_cumgsic t = τ.G .slr_cumgsic t ∧ σ.G .slr_cumgis t = τ.G .slr_cumgis t := by
    intro t
    induction t with
    | zero =>
      intro _
      exact ⟨e.slr.thermal_init.trans e'.slr.thermal_init.symm, e.slr.gsic_init.trans e'.slr.gsic_init.symm,
        e.slr.gis_init.trans e'.slr.gis_init.symm⟩
    | succ t ih =>
      intro ht
      obtain ⟨i1, i2, i3⟩ := ih (by omega)
      have := hT t (by omega)
      rw [e.slr.thermal t ht, e'.slr.thermal t ht, e.slr.gsic t ht, e'.slr.gsic t ht, e.slr.gis t ht,
        e'.slr.gis t ht, i1, i2, i3, this]
      exact ⟨rfl, rfl, rfl⟩
  obtain ⟨s1, s2, s3⟩ := hs t ht
  refine ⟨hcum t ht, hT t ht, s1, s2, s3, ?_⟩
  rw [e.slr.total t ht, e'.slr.total t ht, s1, s2, s3]

/-- Damages. -/
theorem damages {t : ℕ} (ht : t ≤ p.tf) {r : String} (hr : r ∈ p.regions) :
    σ.R .damage_costs t r = τ.R .damage_costs t r := by
  have d := h.eqs.damages
  have d' := h'.eqs.damages
  obtain ⟨_, hT, _, _, _, hS⟩ := climate h h' ha hb ht
  obtain ⟨_, _, _, _, _, hS0⟩ := climate h h' ha hb (Nat.zero_le p.tf)
  cases hd : md.damage with
  | nodamage =>
    rw [hd] at d d'
    rw [d t ht r hr, d' t ht r hr]
  | COACCH =>
    rw [hd] at d d'
    rw [d.total t ht r hr, d'.total t ht r hr, (d.noslr t ht r hr).2.2, (d'.noslr t ht r hr).2.2,
      (d.slr t ht r hr).2.2, (d'.slr t ht r hr).2.2, hT, hS, hS0]

/-- Learning, carbon prices and the abatement costs. -/
theorem costs {t : ℕ} (ht : t ≤ p.tf) :
    σ.G .learning_factor t = τ.G .learning_factor t ∧
    ∀ r ∈ p.regions, σ.R .carbonprice t r = τ.R .carbonprice t r ∧
      σ.R .area_under_MAC t r = τ.R .area_under_MAC t r ∧
      (md.trade = .notrade → σ.R .mitigation_costs t r = τ.R .mitigation_costs t r) := by
  have e := h.eqs.mitigation
  have e' := h'.eqs.mitigation
  have hl : σ.G .learning_factor t = τ.G .learning_factor t := by
    rw [e.learning t ht, e'.learning t ht, (e.lbd t ht).2, (e'.lbd t ht).2, (e.lot t ht).2.2,
      (e'.lot t ht).2.2, (climate h h' ha hb ht).1]
  refine ⟨hl, fun r hr => ?_⟩
  have hb := ((emissions h h' ha hb ht).1 r hr).2.1
  have hA := ha t ht r hr
  have ac : acVal p σ t r = acVal p τ t r := by simp only [acVal]; rw [hl, hA]
  refine ⟨?_, ?_, ?_⟩
  · rw [(e.carbonprice t ht r hr).2, (e'.carbonprice t ht r hr).2]
    simp only [macVal]; rw [hl, hA]
  · rw [(e.area t ht r hr).2, (e'.area t ht r hr).2, ac, hb]
  · intro htr
    rw [(e.mitigation_costs t ht r hr).2, (e'.mitigation_costs t ht r hr).2, ac, hb, htr]
    rfl

/-- Capital: without trade and transfers, and as long as the savings on one step's abatement cost do not
exceed the capital stock. -/
theorem capital (htr : md.trade = .notrade) (hf : md.transfer = .notransfer) (hd : Spec.EconData p)
    (h0 : 0 ≤ p.alpha) (h1 : p.alpha ≤ 1)
    (hK : ∀ t < p.tf, ∀ r ∈ p.regions,
      p.dt * (p.sr * σ.R .mitigation_costs (t + 1) r) < σ.R .capital_stock t r)
    {t : ℕ} (ht : t ≤ p.tf) {r : String} (hr : r ∈ p.regions) :
    σ.R .capital_stock t r = τ.R .capital_stock t r := by
  have e := h.eqs.economy
  have e' := h'.eqs.economy
  have hcap : ∀ t ≤ p.tf, σ.R .capital_stock t r = τ.R .capital_stock t r := by
    intro t
    induction t with
    | zero => intro _; exact (e.capital_init r hr).trans (e'.capital_init r hr).symm
    | succ t ih =>
      intro ht
      have ih := ih (by omega)
      have hc := ((costs h h' ha hb ht).2 r hr).2.2 htr
      have hD := damages h h' ha hb ht hr
      have hdt := hd.dt_pos.ne'
      set D := (if p.ignore_damages then 0 else σ.R .damage_costs (t + 1) r) with hDdef
      have eqn : ∀ ω : Env, EconomyEqs p ω md.transfer →
          ω.R .capital_stock t r = σ.R .capital_stock t r →
          ω.R .mitigation_costs (t + 1) r = σ.R .mitigation_costs (t + 1) r →
          ω.R .damage_costs (t + 1) r = σ.R .damage_costs (t + 1) r →
          (2 - (1 - p.dk) ^ p.dt) * ω.R .capital_stock (t + 1) r =
            (σ.R .capital_stock t r - p.dt * (p.sr * σ.R .mitigation_costs (t + 1) r)) +
            (p.dt * p.sr * (get_TFP_value p (t + 1) r * p.population (t + 1) r ^ (1 - p.alpha)) * (1 - D)) *
              soft_min (ω.R .capital_stock (t + 1) r) 10 ^ p.alpha := by
        intro ω ew q1 q2 q3
        have a1 := (ew.capital t ht r hr).2.2
        rw [ew.investments (t + 1) ht r hr, ew.net (t + 1) ht r hr, (ew.gross t ht r hr).2, q1, q2, q3, hf] at a1
        simp only [transferVal] at a1
        rw [← hDdef] at a1
        set X := soft_min (ω.R .capital_stock (t + 1) r) 10 ^ p.alpha
        field_simp at a1
        linarith
      have q := eqn σ e rfl rfl rfl
      have q' := eqn τ e' ih.symm hc.symm hD.symm
      refine capital_unique ?_ ?_ h0 h1 q q'
      · linarith [(decay_range hd).2]
      · linarith [hK t ht r hr]
  exact hcap t ht

/-- The economy. -/
theorem economy (htr : md.trade = .notrade) (hf : md.transfer = .notransfer)
    (hK : ∀ t ≤ p.tf, ∀ r ∈ p.regions, σ.R .capital_stock t r = τ.R .capital_stock t r)
    {t : ℕ} (ht : t ≤ p.tf) {r : String} (hr : r ∈ p.regions) :
    σ.R .capital_stock t r = τ.R .capital_stock t r ∧ σ.R .GDP_gross t r = τ.R .GDP_gross t r ∧
    σ.R .GDP_net t r = τ.R .GDP_net t r ∧ σ.R .investments t r = τ.R .investments t r ∧
    σ.R .consumption t r = τ.R .consumption t r := by
  have e := h.eqs.economy
  have e' := h'.eqs.economy
  have hcap : ∀ t ≤ p.tf, σ.R .capital_stock t r = τ.R .capital_stock t r := fun t ht => hK t ht r hr
  have hg : σ.R .GDP_gross t r = τ.R .GDP_gross t r := by
    cases t with
    | zero => exact (e.gross_init r hr).trans (e'.gross_init r hr).symm
    | succ t => rw [(e.gross t ht r hr).2, (e'.gross t ht r hr).2, hcap (t + 1) ht]
  have hn : σ.R .GDP_net t r = τ.R .GDP_net t r := by
    rw [e.net t ht r hr, e'.net t ht r hr, hg, damages h h' ha hb ht hr,
      ((costs h h' ha hb ht).2 r hr).2.2 htr, hf]
    rfl
  refine ⟨hcap t ht, hg, hn, ?_, ?_⟩
  · rw [e.investments t ht r hr, e'.investments t ht r hr, hn]
  · rw [e.consumption t ht r hr, e'.consumption t ht r hr, hn]

/-- … and hence welfare and the net present value that is optimised: the whole optimisation is one over
abatement paths. -/
theorem objective (htr : md.trade = .notrade) (hf : md.transfer = .notransfer)
    (hK : ∀ t ≤ p.tf, ∀ r ∈ p.regions, σ.R .capital_stock t r = τ.R .capital_stock t r)
    {t : ℕ} (ht : t ≤ p.tf) :
    σ.G .yearly_welfare t = τ.G .yearly_welfare t ∧ σ.G .NPV t = τ.G .NPV t := by
  have ec := fun {t} (ht : t ≤ p.tf) {r} (hr : r ∈ p.regions) =>
    economy h h' ha hb htr hf hK ht hr
  have hw : ∀ t ≤ p.tf, σ.G .yearly_welfare t = τ.G .yearly_welfare t := by
    intro t ht
    have e := h.eqs.welfare
    have e' := h'.eqs.welfare
    cases hm : md.welfare with
    | welfare_loss_minimising =>
      rw [hm] at e e'
      rw [e.2 t ht, e'.2 t ht]
      refine sumR_congr fun r hr => ?_
      rw [(e.1 t ht r hr).2.2, (e'.1 t ht r hr).2.2, (ec ht hr).2.2.2.2]
    | cost_minimising =>
      rw [hm] at e e'
      rw [(e.2 t ht).2.2, (e'.2 t ht).2.2, sumR_congr fun r hr => (ec ht hr).2.2.2.2]
    | inequal_aversion_general =>
      rw [hm] at e e'
      have : p.sumR (fun r => σ.R .utility t r) = p.sumR (fun r => τ.R .utility t r) :=
        sumR_congr fun r hr => by
          rw [(e.1 t ht r hr).2, (e'.1 t ht r hr).2, (ec ht hr).2.2.2.2]
      rw [(e.2 t ht).2.2.2, (e'.2 t ht).2.2.2, this]
  refine ⟨hw t ht, ?_⟩
  have e := h.eqs.objective
  have e' := h'.eqs.objective
  induction t with
  | zero => cases hm : md.objective <;> rw [hm] at e e' <;> exact e.2.trans e'.2.symm
  | succ t ih =>
    have ih := ih (by omega)
    cases hm : md.objective with
    | utility =>
      rw [hm] at e e'
      rw [e.1 t ht, e'.1 t ht, ih, hw (t + 1) ht]
    | globalcosts =>
      rw [hm] at e e'
      have q1 : p.sumR (fun r => σ.R .mitigation_costs (t + 1) r) =
          p.sumR (fun r => τ.R .mitigation_costs (t + 1) r) :=
        sumR_congr fun r hr => ((costs h h' ha hb ht).2 r hr).2.2 htr
      have q2 : p.sumR (fun r => σ.R .damage_costs (t + 1) r * σ.R .GDP_gross (t + 1) r) =
          p.sumR (fun r => τ.R .damage_costs (t + 1) r * τ.R .GDP_gross (t + 1) r) :=
        sumR_congr fun r hr => by rw [damages h h' ha hb ht hr, (ec ht hr).2.1]
      rw [e.1 t ht, e'.1 t ht, ih, q1, q2]
end
end SameBase

section
variable (h : Solution md p σ) (h' : Solution md p τ) (ha : Spec.SameAbatement p σ τ)
  (hex : p.use_carbon_intensity_for_baseline = false)
include h h' ha hex

omit ha in
/-- An exogenous baseline is the same in all solutions. -/
theorem C54_baseline_exogenous {t : ℕ} (ht : t ≤ p.tf) {r : String} (hr : r ∈ p.regions) :
    σ.R .baseline t r = τ.R .baseline t r := by
  rw [(C23_baseline h ht hr).1 hex, (C23_baseline h' ht hr).1 hex]

/-- Emissions. -/
theorem C54_emissions {t : ℕ} (ht : t ≤ p.tf) :
    (∀ r ∈ p.regions, σ.R .regional_emissions t r = τ.R .regional_emissions t r ∧
      σ.R .baseline t r = τ.R .baseline t r ∧
      σ.R .regional_emission_reduction t r = τ.R .regional_emission_reduction t r) ∧
    σ.G .global_emissions t = τ.G .global_emissions t :=
  SameBase.emissions h h' ha (fun _ ht _ hr => C54_baseline_exogenous h h' hex ht hr) ht

/-- Cumulative emissions, temperature and sea-level rise. -/
theorem C54_climate {t : ℕ} (ht : t ≤ p.tf) :
    σ.G .cumulative_emissions t = τ.G .cumulative_emissions t ∧
    σ.G .temperature t = τ.G .temperature t ∧ σ.G .slr_thermal t = τ.G .slr_thermal t ∧
    σ.G .slr_cumgsic t = τ.G .slr_cumgsic t ∧ σ.G .slr_cumgis t = τ.G .slr_cumgis t ∧
    σ.G .total_SLR t = τ.G .total_SLR t :=
  SameBase.climate h h' ha (fun _ ht _ hr => C54_baseline_exogenous h h' hex ht hr) ht

/-- Damages. -/
theorem C54_damages {t : ℕ} (ht : t ≤ p.tf) {r : String} (hr : r ∈ p.regions) :
    σ.R .damage_costs t r = τ.R .damage_costs t r :=
  SameBase.damages h h' ha (fun _ ht _ hr => C54_baseline_exogenous h h' hex ht hr) ht hr

/-- Learning, carbon prices and the abatement costs. -/
theorem C54_costs {t : ℕ} (ht : t ≤ p.tf) :
    σ.G .learning_factor t = τ.G .learning_factor t ∧
    ∀ r ∈ p.regions, σ.R .carbonprice t r = τ.R .carbonprice t r ∧
      σ.R .area_under_MAC t r = τ.R .area_under_MAC t r ∧
      (md.trade = .notrade → σ.R .mitigation_costs t r = τ.R .mitigation_costs t r) :=
  SameBase.costs h h' ha (fun _ ht _ hr => C54_baseline_exogenous h h' hex ht hr) ht

/-- The economy: without trade and transfers, and as long as the savings on one step's abatement cost do not
exceed the capital stock, also capital, GDP, investments and consumption are determined. -/
theorem C54_economy (htr : md.trade = .notrade) (hf : md.transfer = .notransfer) (hd : Spec.EconData p)
    (h0 : 0 ≤ p.alpha) (h1 : p.alpha ≤ 1)
    (hK : ∀ t < p.tf, ∀ r ∈ p.regions,
      p.dt * (p.sr * σ.R .mitigation_costs (t + 1) r) < σ.R .capital_stock t r)
    {t : ℕ} (ht : t ≤ p.tf) {r : String} (hr : r ∈ p.regions) :
    σ.R .capital_stock t r = τ.R .capital_stock t r ∧ σ.R .GDP_gross t r = τ.R .GDP_gross t r ∧
    σ.R .GDP_net t r = τ.R .GDP_net t r ∧ σ.R .investments t r = τ.R .investments t r ∧
    σ.R .consumption t r = τ.R .consumption t r :=
  SameBase.economy h h' ha (fun _ ht _ hr => C54_baseline_exogenous h h' hex ht hr) htr hf
    (fun _ ht _ hr => SameBase.capital h h' ha (fun _ ht _ hr => C54_baseline_exogenous h h' hex ht hr)
      htr hf hd h0 h1 hK ht hr) ht hr

/-- … and hence welfare and the net present value that is optimised: the whole optimisation is one over
abatement paths. -/
theorem C54_objective (htr : md.trade = .notrade) (hf : md.transfer = .notransfer) (hd : Spec.EconData p)
    (h0 : 0 ≤ p.alpha) (h1 : p.alpha ≤ 1)
    (hK : ∀ t < p.tf, ∀ r ∈ p.regions,
      p.dt * (p.sr * σ.R .mitigation_costs (t + 1) r) < σ.R .capital_stock t r)
    {t : ℕ} (ht : t ≤ p.tf) :
    σ.G .yearly_welfare t = τ.G .yearly_welfare t ∧ σ.G .NPV t = τ.G .NPV t :=
  SameBase.objective h h' ha (fun _ ht _ hr => C54_baseline_exogenous h h' hex ht hr) htr hf
    (fun _ ht _ hr => SameBase.capital h h' ha (fun _ ht _ hr => C54_baseline_exogenous h h' hex ht hr)
      htr hf hd h0 h1 hK ht hr) ht

end

/-! ### Two different solutions with the same abatement path -/

namespace Ex
/-- Same abatement as the standard example but another (unused) effort-sharing level; no damages and
capital elasticity 0. -/
theorem solLvl (lvl : ℕ → ℝ) : Solution (md0 .nodamage .welfare_loss_minimising .utility)
    (ex "noregime" 0 none)
    ((x0 lvl).env (md0 .nodamage .welfare_loss_minimising .utility) (ex "noregime" 0 none)) := by
  apply Drivers.build_solution (admissible le_rfl one_pos)
  apply ok_of _ ⟨rfl, rfl⟩ le_rfl one_pos
  · simp [md0]
  · simp [md0]
  · simp [md0]
  · simp [md0]
  · simp [md0]
  · intro t ht r hr
    show 0 ≤ Drivers.area _ _ t r + 0
    have := area_nonneg (regime := "noregime") (al := 0) (conv := none) (x0 lvl) ⟨rfl, rfl⟩ t ht r
    linarith
  · exact effort_none
  · intro h; exact absurd h (by decide)

theorem cost_le (lvl : ℕ → ℝ) {t : ℕ} (ht : t ≤ 3) (r : String) :
    (x0 lvl).cost (md0 .nodamage .welfare_loss_minimising .utility) (ex "noregime" 0 none) t r ≤ 1 / 2 := by
  show Drivers.area _ _ t r + 0 ≤ _
  rw [add_zero, area_val (x0 lvl) ⟨rfl, rfl⟩]
  obtain ⟨h1, h2⟩ := learn_range (regime := "noregime") (al := 0) (conv := none) (x0 lvl) ⟨rfl, rfl⟩ t ht
  have h3 : aPath t ^ (4 : ℝ) ≤ 1 := Real.rpow_le_one (aPath_range t).1 (aPath_range t).2 (by norm_num)
  have h4 : 0 ≤ aPath t ^ (4 : ℝ) := Real.rpow_nonneg (aPath_range t).1 _
  nlinarith [mul_le_one₀ h2 h4 h3]

theorem capital_ge (lvl : ℕ → ℝ) {t : ℕ} (ht : t ≤ 3) {r : String} :
    30 ≤ (x0 lvl).K (md0 .nodamage .welfare_loss_minimising .utility) (ex "noregime" 0 none) t r := by
  induction t with
  | zero => show (30 : ℝ) ≤ 3 * 10; norm_num
  | succ t ih =>
    have ih := ih (by omega)
    have hadm := admissible (regime := "noregime") (conv := none) (al := 0) le_rfl one_pos
    have hs := (x0 lvl).K_step (md0 .nodamage .welfare_loss_minimising .utility) (ex "noregime" 0 none) hadm rfl t r
    have hc := cost_le lvl ht r
    unfold Drivers.CapStep Drivers.netOf at hs
    set K' := (x0 lvl).K (md0 .nodamage .welfare_loss_minimising .utility) (ex "noregime" 0 none) (t + 1) r
    have hg : Drivers.grossOf (ex "noregime" 0 none) (t + 1) r K' = 10 := by
      simp [Drivers.grossOf, get_TFP_value, calc_GDP_real, ex]
    rw [hg] at hs
    have hd : (if (ex "noregime" 0 none).ignore_damages then 0 else
        (x0 lvl).dam (md0 .nodamage .welfare_loss_minimising .utility) (ex "noregime" 0 none) (t + 1) r) = 0 := by
      simp [ex, Drivers.dam, md0]
    have htr : (x0 lvl).transfer (md0 .nodamage .welfare_loss_minimising .utility) (t + 1) r = 0 := rfl
    rw [hd, htr] at hs
    have h1 := dk_pow_le hadm
    have h2 := dk_pow_pos hadm
    set q := (1 - (ex "noregime" 0 none).dk) ^ (ex "noregime" 0 none).dt
    have e1 : (ex "noregime" 0 none).dt = 40 := rfl
    have e2 : (ex "noregime" 0 none).sr = 1 / 5 := rfl
    rw [e1, e2] at hs
    by_contra hlt
    push Not at hlt
    nlinarith
end Ex

example := C54_emissions (Ex.solLvl fun _ => 0) (Ex.solLvl fun _ => 7) (fun _ _ _ _ => rfl) rfl (t := 3)
  (by simp [Ex.ex])
example := C54_climate (Ex.solLvl fun _ => 0) (Ex.solLvl fun _ => 7) (fun _ _ _ _ => rfl) rfl (t := 3)
  (by simp [Ex.ex])
example := C54_damages (Ex.solLvl fun _ => 0) (Ex.solLvl fun _ => 7) (fun _ _ _ _ => rfl) rfl (t := 3)
  (by simp [Ex.ex]) (r := "A") (by simp [Ex.ex])
example := C54_costs (Ex.solLvl fun _ => 0) (Ex.solLvl fun _ => 7) (fun _ _ _ _ => rfl) rfl (t := 3)
  (by simp [Ex.ex])

theorem Ex.capital_exceeds : ∀ t < (Ex.ex "noregime" 0 none).tf, ∀ r ∈ (Ex.ex "noregime" 0 none).regions,
    (Ex.ex "noregime" 0 none).dt * ((Ex.ex "noregime" 0 none).sr *
      ((Ex.x0 fun _ => 0).env (Ex.md0 .nodamage .welfare_loss_minimising .utility)
        (Ex.ex "noregime" 0 none)).R .mitigation_costs (t + 1) r) <
      ((Ex.x0 fun _ => 0).env (Ex.md0 .nodamage .welfare_loss_minimising .utility)
        (Ex.ex "noregime" 0 none)).R .capital_stock t r := by
  intro t ht r hr
  have h1 := Ex.cost_le (fun _ => 0) (t := t + 1) ht r
  have h2 := Ex.capital_ge (fun _ => 0) (t := t) (le_of_lt ht) (r := r)
  show (40 : ℝ) * (1 / 5 * (x0 fun _ => 0).cost (md0 .nodamage .welfare_loss_minimising .utility) (ex "noregime" 0 none) (t + 1) r) <
    (x0 fun _ => 0).K (md0 .nodamage .welfare_loss_minimising .utility) (ex "noregime" 0 none) t r
  linarith

example := C54_economy (Ex.solLvl fun _ => 0) (Ex.solLvl fun _ => 7) (fun _ _ _ _ => rfl) rfl rfl rfl
  (Ex.admissible le_rfl one_pos).econData le_rfl zero_le_one Ex.capital_exceeds (t := 3) (by simp [Ex.ex])
  (r := "A") (by simp [Ex.ex])
example := C54_objective (Ex.solLvl fun _ => 0) (Ex.solLvl fun _ => 7) (fun _ _ _ _ => rfl) rfl rfl rfl
  (Ex.admissible le_rfl one_pos).econData le_rfl zero_le_one Ex.capital_exceeds (t := 3) (by simp [Ex.ex])

end Mimosa
