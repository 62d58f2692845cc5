import Verif.Props.Milder

/-!
# C72: a less sensitive climate never makes the outcome worse
-/

set_option linter.unusedVariables false

namespace Mimosa
open Damages SeaLevelRise

variable {md : Modules} {p : Params} {σ τ : Env} {γ lot s k : ℝ} {sc : String → ℝ}

/-- The assumptions on climate and damages in the first of the two worlds: it starts at or above the reference
temperature, no melting step takes more ice than there is, damage functions rise with temperature and sea level,
and undoing all sea-level rise up to the start would gain at most half of the product. -/
structure Spec.RegularClimate (md : Modules) (p : Params) (σ : Env) : Prop where
  T0_nonneg : 0 ≤ p.T0
  melt : Spec.MeltOk p.dt p.tf fun t => σ.G .temperature t
  rising : md.damage = .COACCH → ∀ r ∈ p.regions, Spec.CoeffsOk p.noslr r (p.T0 - 0.6) ∧ Spec.CoeffsOk p.slr r 0
  sea_gain : md.damage = .COACCH → ∀ r ∈ p.regions,
    p.damage_scale_factor * (formVal (σ.G .total_SLR 0) p.slr r - formVal 0 p.slr r) ≤ 1 / 2

/-- Non-negative coefficients make a known functional form well defined everywhere. -/
theorem Spec.CoeffsOk.formOk {d : DamageCoeffs} {r : String} {x₀ : ℝ} (h : Spec.CoeffsOk d r x₀) (hk : KnownForm d r)
    (y : ℝ) : FormOk y d r := by
  rcases hk with hk | hk | hk
  · exact .inl hk
  · exact .inr (.inl hk)
  · have := h.b2
    have := Real.exp_pos (soft_max (-(d.b3 r) * y) 10 (1 / 10))
    exact .inr (.inr ⟨hk, by positivity, by positivity⟩)

namespace MilderClimate

/-- Sea-level rise along a lower temperature path. -/
theorem sea (h : Solution md p σ) (hc : Spec.RegularClimate md p σ) {T th gs gi : ℕ → ℝ}
    (hT : ∀ t < p.tf, 0 ≤ T t ∧ T t ≤ σ.G .temperature t)
    (i1 : th 0 = slr_thermal_expansion_init p.T0) (i2 : gs 0 = 0.015) (i3 : gi 0 = 0.006)
    (r1 : ∀ t < p.tf, th (t + 1) = slr_thermal_expansion (th t) (T t) p.dt)
    (r2 : ∀ t < p.tf, gs (t + 1) = slr_gsic (gs t) (T t) p.dt)
    (r3 : ∀ t < p.tf, gi (t + 1) = slr_gis (gi t) (T t) p.dt) {t : ℕ} (ht : t ≤ p.tf) :
    (0 ≤ th t ∧ th t ≤ σ.G .slr_thermal t) ∧ (0 ≤ gs t ∧ gs t ≤ σ.G .slr_cumgsic t) ∧
      (0 ≤ gi t ∧ gi t ≤ σ.G .slr_cumgis t) := by
  have e := h.eqs.slr
  have hm := hc.melt
  have hdt := hm.dt_nonneg
  induction t with
  | zero =>
    rw [e.thermal_init, e.gsic_init, e.gis_init, i1, i2, i3]
    have := thermal_init_nonneg hc.T0_nonneg
    refine ⟨⟨this, le_rfl⟩, ⟨by norm_num, le_rfl⟩, by norm_num, le_rfl⟩
  | succ t ih =>
    obtain ⟨⟨a1, b1⟩, ⟨a2, b2⟩, a3, b3⟩ := ih (by omega)
    obtain ⟨t0, t1⟩ := hT t ht
    obtain ⟨c1, c2⟩ := C39_below_total_ice h hm (t := t) (by omega)
    have g1 : 0.0008 * (σ.G .temperature t + 1) * p.dt < 0.26 := hm.glacier t ht
    have g2 : 0.001 * (1.11860082 * σ.G .temperature t + 0.6) * p.dt < 7.3 := hm.greenland t ht
    have d1 := mul_le_mul_of_nonneg_left t1 hdt
    have s1 : 0.0008 * p.dt * (T t + 1) ≤ 0.26 := by linarith
    have s2 : p.dt * (1.11860082 * T t + 0.6) ≤ 7300 := by linarith
    rw [e.thermal t ht, e.gsic t ht, e.gis t ht, r1 t ht, r2 t ht, r3 t ht]
    refine ⟨⟨thermal_nonneg a1 t0 hdt, thermal_mono b1 hdt t1⟩, ⟨?_, ?_⟩, ?_, ?_⟩
    · exact a2.trans (gsic_range (b2.trans c1.le) hdt (by linarith) s1).1
    · exact gsic_mono b2 c1.le hdt (by linarith) t1 s1
    · exact a3.trans (gis_range (b3.trans c2.le) hdt (by positivity) s2).1
    · exact gis_mono b3 c2.le hdt t1 s2

section
variable (hk : 0 ≤ k ∧ k ≤ p.TCRE) (h : Solution md p σ)
include hk h

/-- The temperature with the lower climate sensitivity, from the same cumulative emissions. -/
theorem temp {t : ℕ} (ht : t ≤ p.tf) :
    p.T0 ≤ p.T0 + k * σ.G .cumulative_emissions t ∧
    p.T0 + k * σ.G .cumulative_emissions t ≤ σ.G .temperature t := by
  have h0 : 0 ≤ σ.G .cumulative_emissions t := h.eqs.emissions.cumulative_nonneg t ht
  rw [h.eqs.emissions.temperature t ht]
  exact ⟨by linarith [mul_nonneg hk.1 h0], by linarith [mul_le_mul_of_nonneg_right hk.2 h0]⟩

variable (hc : Spec.RegularClimate md p σ) (hm : Spec.Milder p γ sc lot s)
include hc hm

omit hk in
/-- What a lower temperature and sea level do to the two parts of the damages. -/
theorem parts (hd : md.damage = .COACCH) {t : ℕ} (ht : t ≤ p.tf) {r : String} (hr : r ∈ p.regions) {T S : ℝ}
    (hT : p.T0 ≤ T ∧ T ≤ σ.G .temperature t) (hS : 0 ≤ S ∧ S ≤ σ.G .total_SLR t) :
    (-1 / 2 ≤ s * (formVal S p.slr r - formVal (σ.G .total_SLR 0) p.slr r) ∧
      s * (formVal S p.slr r - formVal (σ.G .total_SLR 0) p.slr r) ≤ 7 / 10) ∧
    s * (formVal (T - 0.6) p.noslr r - formVal (p.T0 - 0.6) p.noslr r) +
      s * (formVal S p.slr r - formVal (σ.G .total_SLR 0) p.slr r) ≤
    s * (formVal (σ.G .temperature t - 0.6) p.noslr r - formVal (p.T0 - 0.6) p.noslr r) +
      s * (formVal (σ.G .total_SLR t) p.slr r - formVal (σ.G .total_SLR 0) p.slr r) := by
  obtain ⟨c1, c2⟩ := hc.rising hd r hr
  obtain ⟨k1, k2⟩ := h.instOk.forms hd r hr
  have d := h.eqs.damages
  rw [hd] at d
  have b := h.slr_damage_bounds hd ht hr
  rw [(d.slr t ht r hr).2.2] at b
  have m1 := formVal_mono c1 k1 (x := T - 0.6) (y := σ.G .temperature t - 0.6) (by linarith [hT.1]) (by linarith [hT.2])
  have m2 := formVal_mono c2 k2 hS.1 hS.2
  have m3 := formVal_mono c2 k2 le_rfl hS.1
  have s0 : 0 ≤ σ.G .total_SLR 0 := (h.slr_nonneg (Nat.zero_le p.tf)).2.2.2
  have m4 := formVal_mono c2 k2 le_rfl s0
  have hg := hc.sea_gain hd r hr
  have h1 := hm.damage
  refine ⟨⟨?_, ?_⟩, ?_⟩
  · have a1 := mul_le_mul_of_nonneg_left m3 h1.1
    have a2 := mul_le_mul_of_nonneg_right h1.2 (sub_nonneg.2 m4)
    linarith
  · have a1 := mul_le_mul_of_nonneg_left m2 h1.1
    rcases le_total 0 (formVal (σ.G .total_SLR t) p.slr r - formVal (σ.G .total_SLR 0) p.slr r) with hD | hD
    · have := mul_le_mul_of_nonneg_right h1.2 hD
      linarith [b.2]
    · have := mul_nonpos_of_nonneg_of_nonpos h1.1 hD
      linarith
  · have a1 := mul_le_mul_of_nonneg_left m1 h1.1
    have a2 := mul_le_mul_of_nonneg_left m2 h1.1
    linarith
end

section
variable (hk : 0 ≤ k ∧ k ≤ p.TCRE) (h : Solution md p σ) (h' : Solution md (Spec.withWorld p γ sc lot s k) τ)
  (ha : Spec.SamePolicy p σ τ) (hex : p.use_carbon_intensity_for_baseline = false)
  (hc : Spec.RegularClimate md p σ)
include hk h h' ha hex

theorem temperature {t : ℕ} (ht : t ≤ p.tf) : p.T0 ≤ τ.G .temperature t ∧ τ.G .temperature t ≤ σ.G .temperature t := by
  have e' : τ.G .temperature t = p.T0 + k * τ.G .cumulative_emissions t := h'.eqs.emissions.temperature t ht
  rw [e', Milder.cumulative h h' ha hex ht]
  exact temp hk h ht

include hc

theorem seaLevel {t : ℕ} (ht : t ≤ p.tf) : 0 ≤ τ.G .total_SLR t ∧ τ.G .total_SLR t ≤ σ.G .total_SLR t := by
  have e' := h'.eqs.slr
  obtain ⟨⟨a1, b1⟩, ⟨a2, b2⟩, a3, b3⟩ := sea h hc (T := τ.G .temperature) (th := τ.G .slr_thermal) (gs := τ.G .slr_cumgsic)
    (gi := τ.G .slr_cumgis)
    (fun t ht => ⟨hc.T0_nonneg.trans (temperature hk h h' ha hex ht.le).1, (temperature hk h h' ha hex ht.le).2⟩)
    e'.thermal_init e'.gsic_init e'.gis_init e'.thermal e'.gsic e'.gis ht
  have t' : τ.G .total_SLR t = τ.G .slr_thermal t + τ.G .slr_cumgsic t + τ.G .slr_cumgis t := e'.total t ht
  rw [h.eqs.slr.total t ht, t']
  exact ⟨by linarith, by linarith⟩

omit hk ha hex hc in
theorem sea_init : τ.G .total_SLR 0 = σ.G .total_SLR 0 := by
  have e := h.eqs.slr
  have e' := h'.eqs.slr
  have t' : τ.G .total_SLR 0 = τ.G .slr_thermal 0 + τ.G .slr_cumgsic 0 + τ.G .slr_cumgis 0 := e'.total 0 (Nat.zero_le _)
  rw [e.total 0 (Nat.zero_le _), t', e.thermal_init, e'.thermal_init, e.gsic_init, e'.gsic_init, e.gis_init, e'.gis_init]

theorem damages (hm : Spec.Milder p γ sc lot s) (ho : Spec.Moderate p σ) {t : ℕ} (ht : t ≤ p.tf) {r : String}
    (hr : r ∈ p.regions) : τ.R .damage_costs t r ≤ σ.R .damage_costs t r := by
  have d := h.eqs.damages
  have d' := h'.eqs.damages
  cases hd : md.damage with
  | nodamage =>
    rw [hd] at d d'
    rw [d t ht r hr, d' t ht r hr]
  | COACCH =>
    rw [hd] at d d'
    have e1 := (d'.noslr t ht r hr).2.2
    have e2 := (d'.slr t ht r hr).2.2
    have e0 := (ho.damages t ht r hr).1
    rw [d.total t ht r hr, (d.noslr t ht r hr).2.2, (d.slr t ht r hr).2.2] at e0 ⊢
    rw [d'.total t ht r hr, e1, e2, sea_init h h']
    have key := (parts h hc hm hd ht hr (temperature hk h h' ha hex ht) (seaLevel hk h h' ha hex hc ht)).2
    refine le_trans (show _ ≤ _ from key) ?_
    set A := formVal (σ.G .temperature t - 0.6) p.noslr r - formVal (p.T0 - 0.6) p.noslr r
    set B := formVal (σ.G .total_SLR t) p.slr r - formVal (σ.G .total_SLR 0) p.slr r
    have h1 := hm.damage
    rcases h1.2.eq_or_lt with h2 | h2
    · rw [h2]
    · have h3 : 0 < p.damage_scale_factor := h1.1.trans_lt h2
      have h4 : 0 ≤ A + B := by
        by_contra hneg
        have := mul_neg_of_pos_of_neg h3 (not_le.1 hneg)
        linarith
      have := mul_le_mul_of_nonneg_right h1.2 h4
      linarith
end

section
variable {bal : ℕ → String → ℝ} (hk : 0 ≤ k ∧ k ≤ p.TCRE) (h : Solution md p σ)
  (hex : p.use_carbon_intensity_for_baseline = false) (hc : Spec.RegularClimate md p σ)
include hk h hex hc

/-- Temperature and sea level of the same abatement with the lower sensitivity. -/
theorem climate {t : ℕ} (ht : t ≤ p.tf) :
    (p.T0 ≤ (Milder.x σ bal).temp (Spec.withWorld p γ sc lot s k) t ∧
      (Milder.x σ bal).temp (Spec.withWorld p γ sc lot s k) t ≤ σ.G .temperature t) ∧
    (0 ≤ (Milder.x σ bal).th (Spec.withWorld p γ sc lot s k) t ∧
      0 ≤ (Milder.x σ bal).gs (Spec.withWorld p γ sc lot s k) t ∧
      0 ≤ (Milder.x σ bal).gi (Spec.withWorld p γ sc lot s k) t) ∧
    (0 ≤ (Milder.x σ bal).slr (Spec.withWorld p γ sc lot s k) t ∧
      (Milder.x σ bal).slr (Spec.withWorld p γ sc lot s k) t ≤ σ.G .total_SLR t) ∧
    (Milder.x σ bal).slr (Spec.withWorld p γ sc lot s k) 0 = σ.G .total_SLR 0 := by
  set q := Spec.withWorld p γ sc lot s k with hq
  have tE : ∀ t ≤ p.tf, (Milder.x σ bal).temp q t = p.T0 + k * σ.G .cumulative_emissions t := by
    intro t ht
    show p.T0 + k * (Milder.x σ bal).cum q t = _
    rw [Milder.cum_eq h hex ht]
  have tR : ∀ t ≤ p.tf, p.T0 ≤ (Milder.x σ bal).temp q t ∧ (Milder.x σ bal).temp q t ≤ σ.G .temperature t := by
    intro t ht
    rw [tE t ht]
    exact temp hk h ht
  obtain ⟨⟨a1, b1⟩, ⟨a2, b2⟩, a3, b3⟩ := sea h hc (T := (Milder.x σ bal).temp q) (th := (Milder.x σ bal).th q)
    (gs := (Milder.x σ bal).gs q) (gi := (Milder.x σ bal).gi q)
    (fun t ht => ⟨hc.T0_nonneg.trans (tR t ht.le).1, (tR t ht.le).2⟩) rfl rfl rfl (fun _ _ => rfl) (fun _ _ => rfl)
    (fun _ _ => rfl) ht
  refine ⟨tR t ht, ⟨a1, a2, a3⟩, ?_, ?_⟩
  · rw [h.eqs.slr.total t ht]
    show 0 ≤ _ + _ + _ ∧ _ + _ + _ ≤ _
    exact ⟨by linarith, by linarith⟩
  · rw [h.eqs.slr.total 0 (Nat.zero_le _), h.eqs.slr.thermal_init, h.eqs.slr.gsic_init, h.eqs.slr.gis_init]
    rfl

theorem ok_costs (hadm : p.Admissible) (hm : Spec.Milder p γ sc lot s) (hp : Spec.UnsharedPolicy md p)
    (htr : md.trade ≠ .globalcostpool)
    (hbal : md.trade = .emissiontrade → ∀ t ≤ p.tf, 0 < t → p.sumR (bal t) = 0)
    (hfloor : ∀ t ≤ p.tf, ∀ r ∈ p.regions, (if t > 0 then p.rel_mitigation_costs_min_level else 0) ≤
      (Milder.x σ bal).cost md (Spec.withWorld p γ sc lot s k) t r /
        (Milder.x σ bal).gross md (Spec.withWorld p γ sc lot s k) t r) :
    (Milder.x σ bal).Ok md (Spec.withWorld p γ sc lot s k) := by
  have cl := fun {t} (ht : t ≤ p.tf) =>
    climate (bal := bal) (γ := γ) (sc := sc) (lot := lot) (s := s) hk h hex hc ht
  refine Milder.ok_world h hex hadm hm hp htr hbal hfloor (fun t ht => (cl ht).1.2) (fun t ht => (cl ht).2.1) ?_ ?_
  · intro hd t ht r hr
    obtain ⟨c1, c2⟩ := hc.rising hd r hr
    obtain ⟨k1, k2⟩ := h.instOk.forms hd r hr
    exact ⟨c1.formOk k1 _, c2.formOk k2 _⟩
  · intro hd t ht r hr
    rw [(cl ht).2.2.2]
    exact (parts h hc hm hd ht hr (cl ht).1 (cl ht).2.2.1).1

theorem ok (hadm : p.Admissible) (hm : Spec.Milder p γ sc lot s) (hp : Spec.PlainPolicy md p) :
    (Milder.x σ bal).Ok md (Spec.withWorld p γ sc lot s k) :=
  ok_costs hk h hex hc hadm hm hp.toUnsharedPolicy (by rw [hp.trade]; decide)
    (fun hh => by rw [hp.trade] at hh; cases hh) (fun t ht r hr => Milder.floor_plain h hadm hm hp ht hr)
end
end MilderClimate

/-! ## The theorems -/

/-- **C72.** The same abatement where the climate is less sensitive (and abatement and damages not worse): emissions
are the same; temperature and sea level, carbon prices, abatement costs and damages are not higher; and no region has a
smaller product, capital stock or consumption, in any model year. -/
theorem C72_same_policy (hadm : p.Admissible) (hk : 0 ≤ k ∧ k ≤ p.TCRE) (hm : Spec.Milder p γ sc lot s)
    (hp : Spec.PlainPolicy md p) (hex : p.use_carbon_intensity_for_baseline = false) (hsr : p.sr ≤ 1)
    (h : Solution md p σ) (h' : Solution md (Spec.withWorld p γ sc lot s k) τ) (ha : Spec.SamePolicy p σ τ)
    (ho : Spec.Moderate p σ) (hc : Spec.RegularClimate md p σ) {t : ℕ} (ht : t ≤ p.tf) :
    (τ.G .temperature t ≤ σ.G .temperature t ∧ τ.G .total_SLR t ≤ σ.G .total_SLR t ∧
      σ.G .yearly_welfare t ≤ τ.G .yearly_welfare t) ∧
    ∀ r ∈ p.regions, τ.R .regional_emissions t r = σ.R .regional_emissions t r ∧
      τ.R .carbonprice t r ≤ σ.R .carbonprice t r ∧ τ.R .mitigation_costs t r ≤ σ.R .mitigation_costs t r ∧
      τ.R .damage_costs t r ≤ σ.R .damage_costs t r ∧ σ.R .capital_stock t r ≤ τ.R .capital_stock t r ∧
      σ.R .GDP_gross t r ≤ τ.R .GDP_gross t r ∧ σ.R .GDP_net t r ≤ τ.R .GDP_net t r ∧
      σ.R .consumption t r ≤ τ.R .consumption t r := by
  have hcost : ∀ t ≤ p.tf, ∀ r ∈ p.regions, τ.R .mitigation_costs t r ≤ σ.R .mitigation_costs t r := fun t ht r hr =>
    (Milder.costs h h' ha hex hadm hm hp.trade hp.baseline ht hr).2
  have hd : ∀ t ≤ p.tf, ∀ r ∈ p.regions, τ.R .damage_costs t r ≤ σ.R .damage_costs t r := fun t ht r hr =>
    MilderClimate.damages hk h h' ha hex hc hm ho ht hr
  have hf := hp.transfer
  exact ⟨⟨(MilderClimate.temperature hk h h' ha hex ht).2, (MilderClimate.seaLevel hk h h' ha hex hc ht).2,
      Milder.welfare hadm hm h h' hf hcost hd ho hsr ht⟩,
    fun r hr => ⟨(Milder.emissions h h' ha hex ht).1 r hr, Milder.prices h h' ha hex hadm hm ht hr, hcost t ht r hr,
      hd t ht r hr, Milder.capital hadm hm h h' hf hcost hd ho hr ht, Milder.gross hadm hm h h' hf hcost hd ho ht hr,
      Milder.net hadm hm h h' hf hcost hd ho ht hr, Milder.consumption hadm hm h h' hf hcost hd ho hsr ht hr⟩⟩

/-- **C72.** Every policy that is possible, temperature target included, is also possible where the climate is less
sensitive. -/
theorem C72_policy_possible (hadm : p.Admissible) (hk : 0 ≤ k ∧ k ≤ p.TCRE) (hm : Spec.Milder p γ sc lot s)
    (hp : Spec.PlainPolicy md p) (hex : p.use_carbon_intensity_for_baseline = false) (h : Solution md p σ)
    (hc : Spec.RegularClimate md p σ) :
    ∃ τ, Solution md (Spec.withWorld p γ sc lot s k) τ ∧ Spec.SamePolicy p σ τ :=
  ⟨_, Drivers.build_solution (Milder.admissible hadm hm) (MilderClimate.ok (bal := fun _ _ => 0) hk h hex hc hadm hm hp),
    fun t h0 ht r hr => if_neg (Nat.pos_iff_ne_zero.1 h0)⟩

/-- **C72.** So with the objective "utility" the optimum is not worse where the climate is less sensitive. -/
theorem C72_optimum (hadm : p.Admissible) (hk : 0 ≤ k ∧ k ≤ p.TCRE) (hm : Spec.Milder p γ sc lot s)
    (hp : Spec.PlainPolicy md p) (hex : p.use_carbon_intensity_for_baseline = false) (hsr : p.sr ≤ 1)
    (hob : md.objective = .utility) (h : Optimal md p σ) (h' : Optimal md (Spec.withWorld p γ sc lot s k) τ)
    (ho : Spec.Moderate p σ) (hc : Spec.RegularClimate md p σ) :
    σ.G .NPV p.tf ≤ τ.G .NPV p.tf := by
  obtain ⟨ρ, hρ, ha⟩ := C72_policy_possible hadm hk hm hp hex h.1 hc
  have h1 := Milder.objective hadm hm h.1 hρ hp.transfer
    (fun t ht r hr => (Milder.costs h.1 hρ ha hex hadm hm hp.trade hp.baseline ht hr).2)
    (fun t ht r hr => MilderClimate.damages hk h.1 hρ ha hex hc hm ho ht hr) ho hsr hob
  have h2 := h'.best hρ
  unfold Spec.objectiveValue at h1 h2
  rw [hob] at h1 h2
  exact h1.trans h2

/-! ## Witnesses -/

namespace Ex
variable (w : WelfareModule) (o : ObjectiveModule)

theorem regularM : Spec.RegularClimate (md0 .COACCH w o) (ex "noregime" 0 none) (σM w o) := by
  have hy : ((x0 fun _ => 0).a = fun t _ => aPath t) ∧ (x0 fun _ => 0).base = none := ⟨rfl, rfl⟩
  have hT : ∀ t ≤ 3, 1 ≤ (σM w o).G .temperature t ∧ (σM w o).G .temperature t ≤ 1.96 := fun t ht =>
    temp_range (regime := "noregime") (x0 _) hy t ht
  have hdt : (ex "noregime" 0 none).dt = 40 := rfl
  refine ⟨by norm_num [ex], ⟨by rw [hdt]; norm_num, ?_, ?_, ?_⟩, ?_, ?_⟩
  iterate 3
    intro t ht
    have := hT t (le_of_lt ht)
    rw [hdt] at *
    norm_num at this ⊢; linarith
  · intro _ r hr
    simp only [ex, List.mem_cons, List.not_mem_nil, or_false] at hr
    rcases hr with rfl | rfl <;> constructor <;> constructor <;> simp [ex] <;> norm_num
  · intro _ r hr
    show 1 * (formVal ((x0 fun _ => 0).slr (ex "noregime" 0 none) 0) (ex "noregime" 0 none).slr r -
      formVal 0 (ex "noregime" 0 none).slr r) ≤ 1 / 2
    simp only [ex, List.mem_cons, List.not_mem_nil, or_false] at hr
    rcases hr with rfl | rfl
    · have := slr_le (regime := "noregime") (al := 0) (conv := none) _ hy 0 (by norm_num)
      rw [formS_A, formS_A]; linarith
    · have b1 := formS_B_range (regime := "noregime") (al := 0) (conv := none) ((x0 fun _ => 0).slr (ex "noregime" 0 none) 0)
      have b2 := formS_B_range (regime := "noregime") (al := 0) (conv := none) 0
      linarith [b1.2, b2.1]

/-- The same cost parameters, half the climate sensitivity: the two worlds differ, and the theorems apply. -/
theorem sameCosts : Spec.Milder (ex "noregime" 0 none) (ex "noregime" 0 none).MAC_gamma
    (ex "noregime" 0 none).MAC_scaling_factor (ex "noregime" 0 none).LOT_rate (ex "noregime" 0 none).damage_scale_factor :=
  ⟨by norm_num [ex], by simp [ex], le_rfl, by norm_num [ex]⟩

theorem halfTCRE : 0 ≤ (ex "noregime" 0 none).TCRE / 2 ∧ (ex "noregime" 0 none).TCRE / 2 ≤ (ex "noregime" 0 none).TCRE := by
  norm_num [ex]

example : ∃ τ, Solution (md0 .COACCH w o) { ex "noregime" 0 none with TCRE := (ex "noregime" 0 none).TCRE / 2 } τ ∧
    τ.R .relative_abatement 2 "A" = 1 ∧ τ.G .temperature 1 < (σM w o).G .temperature 1 ∧
    τ.R .damage_costs 2 "A" ≤ (σM w o).R .damage_costs 2 "A" ∧
    (σM w o).R .consumption 2 "A" ≤ τ.R .consumption 2 "A" := by
  have hadm : (ex "noregime" 0 none).Admissible := admissible le_rfl one_pos
  obtain ⟨τ, h, ha⟩ := C72_policy_possible hadm halfTCRE sameCosts (plainM w o) rfl (solM w o) (regularM w o)
  have key := (C72_same_policy hadm halfTCRE sameCosts (plainM w o) rfl (by norm_num [ex]) (solM w o) h ha
    (moderateM w o) (regularM w o) (t := 2) (by norm_num [ex])).2 "A" (by simp [ex])
  refine ⟨τ, h, ?_, ?_, key.2.2.2.1, key.2.2.2.2.2.2.2⟩
  · rw [ha 2 (by norm_num) (by norm_num [ex]) "A" (by simp [ex])]
    show aPath 2 = 1
    norm_num [aPath]
  · have hy : ((x0 fun _ => 0).a = fun t _ => aPath t) ∧ (x0 fun _ => 0).base = none := ⟨rfl, rfl⟩
    have e := (solM w o).eqs.emissions.temperature 1 (by norm_num [ex])
    have e' := h.eqs.emissions.temperature 1 (by norm_num [ex])
    rw [Milder.cumulative (solM w o) h ha rfl (t := 1) (by norm_num [ex])] at e'
    rw [e, e']
    have h0 : (σM w o).G .cumulative_emissions 1 = 1200 :=
      (cum_val (regime := "noregime") (al := 0) (conv := none) _ hy).2.1
    rw [h0]
    norm_num [ex]

/-- Two optima, with half the climate sensitivity in the second. -/
example : ∃ σ τ, Optimal (md0 .nodamage w .utility) free σ ∧
    Optimal (md0 .nodamage w .utility) { free with TCRE := free.TCRE / 2 } τ ∧ σ.G .NPV 3 ≤ τ.G .NPV 3 := by
  have hm : Spec.Milder free free.MAC_gamma free.MAC_scaling_factor free.LOT_rate free.damage_scale_factor :=
    ⟨by norm_num [free, ex], by simp [free, ex], le_rfl, by norm_num [free, ex]⟩
  have hp : Spec.PlainPolicy (md0 .nodamage w .utility) free :=
    ⟨⟨rfl, rfl, le_rfl, le_rfl, by norm_num [free, ex], by simp [free, ex]⟩, rfl⟩
  have hk : 0 ≤ free.TCRE / 2 ∧ free.TCRE / 2 ≤ free.TCRE := by norm_num [free, ex]
  have h := free_optimal w
  have hc : Spec.RegularClimate (md0 .nodamage w .utility) free (σZero w .utility) := by
    have hT : ∀ t < 3, 1 ≤ (σZero w .utility).G .temperature t ∧ (σZero w .utility).G .temperature t ≤ 4 := by
      intro t ht
      have := mild_temp mild_zero (t := t) (by omega)
      rw [← Path.temp_eq] at this
      exact ⟨this.1, this.2.trans (by norm_num)⟩
    have hdt : free.dt = 40 := rfl
    refine ⟨by norm_num [free, ex], ⟨by rw [hdt]; norm_num, ?_, ?_, ?_⟩, fun h => (by cases h), fun h => (by cases h)⟩
    all_goals
      intro t ht
      have := hT t ht
      try rw [hdt]
      norm_num at this ⊢; linarith
  obtain ⟨ρ, hρ, -⟩ := C72_policy_possible free_admissible hk hm hp rfl h.1 hc
  obtain ⟨τ, hτ⟩ := C65_optimum_exists_exogenous (Milder.admissible free_admissible hm) (fun h => by cases h) rfl ⟨ρ, hρ⟩
  refine ⟨_, τ, h, hτ, C72_optimum free_admissible hk hm hp rfl (by norm_num [free, ex]) rfl h hτ ⟨?_, ?_⟩ hc⟩
  · intro t ht r hr
    have : (σZero w .utility).R .damage_costs t r = 0 := h.1.eqs.damages t ht r hr
    rw [this]; norm_num
  · intro t ht r hr
    rw [free_cost_zero]
    have e : (40 : ℝ) * (1 / 5 * 0) = 0 := by norm_num
    refine e.trans_lt (C37_positive h.1 free_admissible.econData hr (fun t ht => ?_) (Nat.le_of_lt ht))
    have h1 := (free_cons h.1 ht hr).1
    have h2 := h.1.eqs.economy.consumption t ht r hr
    rw [free_cost_zero] at h1
    have h3 : (1 - 1 / 5) * (σZero w .utility).R .GDP_net t r = 4 / 5 * (10 - 0) := h2.symm.trans h1
    linarith
end Ex
end Mimosa
