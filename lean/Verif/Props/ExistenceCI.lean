import Verif.Lib.CarbonIntensity

/-!
# C49 with the carbon-intensity baseline

Here the emissions of a period depend on its GDP, which depends on its emissions through damages and abatement costs.
`C49_path_feasible_carbon_intensity`: every abatement path that starts at zero extends to a solution, provided the limits
are met by the economy without any damages and costs (`Spec.Favourable…`), which bounds emissions from above.
-/

set_option linter.unusedVariables false
set_option linter.unusedSectionVars false

namespace Mimosa
open SeaLevelRise

namespace Spec
variable (p : Params)

/-- sea-level rise (thermal expansion, glaciers, Greenland) along a temperature path -/
noncomputable def seaOf (T : ℕ → ℝ) : ℕ → ℝ × ℝ × ℝ
  | 0 => (0.0920666936642 + 0.024076141150722 * (0.5 * p.T0 - 0.0920666936642), 0.015, 0.006)
  | t + 1 =>
    let (th, gs, gi) := seaOf T t
    ((1 - 0.024076141150722) ^ (p.dt / 10) * th + 0.024076141150722 * (p.dt / 10) * (T t * 0.5),
     gs + 0.0008 / 0.26 * p.dt * (0.26 - gs) * (T t + 1),
     gi + p.dt / 10 * (1 / 100) * (1.11860082 * T t + 0.6) * (1 - gi / 7.3))
/-- total sea-level rise along a temperature path -/
noncomputable def seaLevelOf (T : ℕ → ℝ) (t : ℕ) : ℝ := (seaOf p T t).1 + (seaOf p T t).2.1 + (seaOf p T t).2.2
/-- sea-level damages along a temperature path, as a fraction of GDP -/
noncomputable def seaDamageOf (T : ℕ → ℝ) (t : ℕ) (r : String) : ℝ :=
  p.damage_scale_factor * (formVal (seaLevelOf p T t) p.slr r - formVal (seaLevelOf p T 0) p.slr r)
/-- all damages along a temperature path, as a fraction of GDP -/
noncomputable def damageOf (T : ℕ → ℝ) (t : ℕ) (r : String) : ℝ :=
  p.damage_scale_factor * (formVal (T t - 0.6) p.noslr r - formVal (p.T0 - 0.6) p.noslr r) + seaDamageOf p T t r

/-- GDP that a capital stock produces: total factor productivity, labour and capital -/
noncomputable def gdpOf (t : ℕ) (r : String) (K : ℝ) : ℝ :=
  if t = 0 then p.baseline_GDP 0 r
  else get_TFP_value p t r * p.population t r ^ (1 - p.alpha) * soft_min K 10 ^ p.alpha

/-- `Kf` is the capital of an economy without damages and abatement costs, whose GDP is even a factor `1 + g` higher
than its capital produces (`g = 0` if climate change nowhere has benefits). -/
structure FavourableGrowth (g : ℝ) (Kf : ℕ → String → ℝ) : Prop where
  init : ∀ r ∈ p.regions, Kf 0 r = p.init_capitalstock_factor r * p.baseline_GDP 0 r
  step : ∀ t < p.tf, ∀ r ∈ p.regions, Kf (t + 1) r = Kf t r + ((1 - p.dk) ^ p.dt - 1) * Kf (t + 1) r +
    p.dt * p.sr * ((1 + g) * gdpOf p (t + 1) r (Kf (t + 1) r))

variable (a : ℕ → String → ℝ) (g : ℝ) (Kf : ℕ → String → ℝ)

/-- emissions of that economy, after abatement -/
noncomputable def favourableEmissions (t : ℕ) (r : String) : ℝ :=
  if t = 0 then p.baseline_emissions 0 r
  else (1 - a t r) * (p.baseline_carbon_intensity t r * ((1 + g) * gdpOf p t r (Kf t r)))
/-- its world emissions -/
noncomputable def favourableWorld (t : ℕ) : ℝ := (p.regions.map fun r => favourableEmissions p a g Kf t r).sum
/-- its cumulative emissions -/
noncomputable def favourableCumulative : ℕ → ℝ
  | 0 => 0
  | t + 1 => favourableCumulative t + (if p.cumulative_emissions_trapz then
      p.dt * (favourableWorld p a g Kf (t + 1) + favourableWorld p a g Kf t) / 2
      else p.dt * favourableWorld p a g Kf (t + 1))
/-- the temperature it would lead to -/
noncomputable def favourableTemperature (t : ℕ) : ℝ := p.T0 + p.TCRE * favourableCumulative p a g Kf t

/-- A temperature path that starts at the initial temperature, and stays between it and that of the favourable
economy. -/
structure PossibleTemperature (T : ℕ → ℝ) : Prop where
  init : T 0 = p.T0
  range : ∀ t ≤ p.tf, p.T0 ≤ T t ∧ T t ≤ favourableTemperature p a g Kf t

/-- The configured limits are met, whatever emissions between zero and those of the favourable economy are. -/
structure PathWithinLimitsCI (md : Modules) : Prop where
  starts_at_zero : ∀ r ∈ p.regions, a 0 r = 0
  range : ∀ t ≤ p.tf, ∀ r ∈ p.regions, 0 ≤ a t r ∧ a t r ≤ 1
  target : ∀ T, p.temperature_target = some T → ∀ t ≤ p.tf, 2100 ≤ p.year t → favourableTemperature p a g Kf t ≤ T
  budget : ∀ b, p.budget = some b → ∀ t ≤ p.tf, 2100 ≤ p.year t → favourableCumulative p a g Kf t ≤ b ∧
    (p.no_pos_emissions_after_budget_year = true → favourableWorld p a g Kf t ≤ 0)
  inertia_global : ∀ i, p.inertia_global = some i → ∀ t < p.tf,
    p.dt * i * (p.regions.map fun r => p.baseline_emissions 0 r).sum ≤ -favourableWorld p a g Kf t
  inertia_regional : ∀ i, p.inertia_regional = some i → ∀ t < p.tf, ∀ r ∈ p.regions,
    p.dt * i * p.baseline_emissions 0 r ≤ -favourableEmissions p a g Kf t r
  min_global : ∀ l, p.global_min_level = some l → l ≤ 0
  min_regional : ∀ l, p.regional_min_level = some l → l ≤ 0
  non_increasing : p.non_increasing_emissions_after_2100 = true → ∀ t < p.tf, 2100 < p.year t →
    ∀ r ∈ p.regions, favourableEmissions p a g Kf (t + 1) r ≤ 0
  cost_floor : p.rel_mitigation_costs_min_level ≤ 0
  /-- the carbon price stays below the largest value the model allows -/
  price : ∀ t ≤ p.tf, ∀ r ∈ p.regions, a t r = 0 ∨
    (favourableCumulative p a g Kf t ≤ p.cumulative_global_baseline_emissions t ∧
      p.MAC_scaling_factor r * a t r ^ p.MAC_beta ≤ 2)
  /-- no step melts more ice than there is -/
  melt : ∀ t ≤ p.tf, 0.0008 * p.dt * (favourableTemperature p a g Kf t + 1) ≤ 0.26 ∧
    p.dt * (1.11860082 * favourableTemperature p a g Kf t + 0.6) ≤ 7300
  /-- sea-level damages stay within the range the model allows for them; damages cost at most the whole GDP, benefits
  of climate change are at most a fraction `g` -/
  damages : md.damage = .COACCH → ∀ T, PossibleTemperature p a g Kf T → ∀ t ≤ p.tf, ∀ r ∈ p.regions,
    seaDamageOf p T t r ∈ Set.Icc (-1 / 2 : ℝ) (7 / 10) ∧ damageOf p T t r ∈ Set.Icc (-g) 1
  /-- transfers by the damage pool are at most the damages: there may be no benefits -/
  pool : md.transfer = .globaldamagepool → md.damage = .COACCH → g = 0

theorem seaOf_congr {T T' : ℕ → ℝ} {t : ℕ} (h : ∀ s < t, T s = T' s) : seaOf p T t = seaOf p T' t := by
  induction t with
  | zero => rfl
  | succ t ih => simp only [seaOf, ih fun s hs => h s (by omega), h t (by omega)]
end Spec

open Spec

variable {md : Modules} {p : Params} {a : ℕ → String → ℝ} {g : ℝ} {Kf : ℕ → String → ℝ}

/-- The favourable economy exists, whatever the data. -/
theorem favourable_exists (hadm : p.Admissible) : ∃ Kf, FavourableGrowth p g Kf := by
  classical
  have hA : 0 < 2 - (1 - p.dk) ^ p.dt := by linarith [dk_pow_le hadm]
  have hex : ∀ (t : ℕ) (r : String) (K : ℝ), ∃ K' : ℝ, K' = K + ((1 - p.dk) ^ p.dt - 1) * K' +
      p.dt * p.sr * ((1 + g) * gdpOf p (t + 1) r K') := by
    intro t r K
    obtain ⟨K', hK⟩ := capital_exists (B := K)
      (C := p.dt * p.sr * (1 + g) * (get_TFP_value p (t + 1) r * p.population (t + 1) r ^ (1 - p.alpha)))
      hA hadm.alpha_nonneg hadm.alpha_lt
    refine ⟨K', ?_⟩
    rw [gdpOf, if_neg (Nat.succ_ne_zero t)]
    linarith
  choose nxt hn using hex
  refine ⟨fun t => Nat.rec (motive := fun _ => String → ℝ)
    (fun r => p.init_capitalstock_factor r * p.baseline_GDP 0 r) (fun t K r => nxt t r (K r)) t, ?_, ?_⟩
  · intro r _; rfl
  · intro t _ r _; exact hn t r _

namespace CI
variable (p md a)

/-- the state of the economy and climate in a period -/
structure State where
  cum : ℝ
  world : ℝ
  sea : ℝ × ℝ × ℝ
  K : String → ℝ

/-- temperature for cumulative emissions -/
noncomputable def tempOf (c : ℝ) : ℝ := p.T0 + p.TCRE * c
noncomputable def sea0 : ℝ × ℝ × ℝ :=
  (0.0920666936642 + 0.024076141150722 * (0.5 * p.T0 - 0.0920666936642), 0.015, 0.006)
noncomputable def seaNext (s : ℝ × ℝ × ℝ) (T : ℝ) : ℝ × ℝ × ℝ :=
  ((1 - 0.024076141150722) ^ (p.dt / 10) * s.1 + 0.024076141150722 * (p.dt / 10) * (T * 0.5),
     s.2.1 + 0.0008 / 0.26 * p.dt * (0.26 - s.2.1) * (T + 1),
     s.2.2 + p.dt / 10 * (1 / 100) * (1.11860082 * T + 0.6) * (1 - s.2.2 / 7.3))
def lvl (s : ℝ × ℝ × ℝ) : ℝ := s.1 + s.2.1 + s.2.2
/-- damages as a fraction of GDP -/
noncomputable def dmg (c : ℝ) (s : ℝ × ℝ × ℝ) (r : String) : ℝ :=
  match md.damage with
  | .COACCH => p.damage_scale_factor * (formVal (tempOf p c - 0.6) p.noslr r - formVal (p.T0 - 0.6) p.noslr r) +
      p.damage_scale_factor * (formVal (lvl s) p.slr r - formVal (lvl (sea0 p)) p.slr r)
  | .nodamage => 0
/-- learning factor -/
noncomputable def learnOf (t : ℕ) (c : ℝ) : ℝ :=
  soft_min ((p.cumulative_global_baseline_emissions t - c) / p.LBD_scaling + 1) 1 ^ p.log_LBD_rate * Drivers.lot p t
/-- abatement costs per unit of baseline emissions -/
noncomputable def acOf (t : ℕ) (r : String) (c : ℝ) : ℝ :=
  learnOf p t c * p.MAC_scaling_factor r * p.MAC_gamma * a t r ^ (p.MAC_beta + 1) / (p.MAC_beta + 1)
/-- net GDP as a fraction of gross GDP -/
noncomputable def share (t : ℕ) (r : String) (c : ℝ) (s : ℝ × ℝ × ℝ) : ℝ :=
  (1 - (if p.ignore_damages then 0 else dmg md p c s r)) / (1 + acOf p a t r c * p.baseline_carbon_intensity t r)
/-- cumulative emissions of the next period -/
noncomputable def cumNext (s : State) (E : ℝ) : ℝ :=
  s.cum + (if p.cumulative_emissions_trapz then p.dt * (E + s.world) / 2 else p.dt * E)

/-- `s'` follows `s` -/
structure Step (t : ℕ) (s s' : State) : Prop where
  cum : s'.cum = cumNext p s s'.world
  sea : s'.sea = seaNext p s.sea (tempOf p s.cum)
  cap : ∀ r ∈ p.regions, (2 - (1 - p.dk) ^ p.dt) * s'.K r = s.K r +
    p.dt * p.sr * (gdpOf p (t + 1) r (s'.K r) * share md p a (t + 1) r s'.cum s'.sea)
  world : p.sumR (fun r => (1 - a (t + 1) r) * (p.baseline_carbon_intensity (t + 1) r *
    (gdpOf p (t + 1) r (s'.K r) * share md p a (t + 1) r s'.cum s'.sea))) = s'.world
  world_nonneg : 0 ≤ s'.world
  world_le : s'.world ≤ favourableWorld p a g Kf (t + 1)
  K_pos : ∀ r ∈ p.regions, 0 < s'.K r ∧ s'.K r ≤ Kf (t + 1) r

noncomputable def init : State := ⟨0, p.sumR fun r => p.baseline_emissions 0 r, sea0 p,
  fun r => p.init_capitalstock_factor r * p.baseline_GDP 0 r⟩

open Classical in
variable (g Kf) in
noncomputable def state : ℕ → State
  | 0 => init p
  | t + 1 => if h : ∃ s', Step md p a (g := g) (Kf := Kf) t (state t) s' then h.choose else state t

section
variable {p md a}
variable (hadm : p.Admissible) (hd : OrdinaryData md p) (hg : 0 ≤ g) (hU : FavourableGrowth p g Kf)
  (hci : ∀ t ≤ p.tf, ∀ r ∈ p.regions, 0 ≤ p.baseline_carbon_intensity t r)
  (hl : PathWithinLimitsCI p a g Kf md)
include hadm hd hl

theorem learnOf_pos (t : ℕ) (c : ℝ) : 0 < learnOf p t c :=
  mul_pos (Real.rpow_pos_of_pos (soft_min_pos_one _) _) (one_div_pos.2 (Real.rpow_pos_of_pos hadm.lot _))

theorem ac_nonneg {t : ℕ} (ht : t ≤ p.tf) {r : String} (hr : r ∈ p.regions) (c : ℝ) : 0 ≤ acOf p a t r c := by
  have h1 := (learnOf_pos hadm hd hl t c).le
  have h2 := hd.scaling_nonneg r hr
  have h3 := hd.gamma_nonneg
  have h4 : 0 ≤ (a t r) ^ (p.MAC_beta + 1) := Real.rpow_nonneg (hl.range t ht r hr).1 _
  have h5 := hadm.beta_pos
  unfold acOf; positivity

include hci in
theorem den_pos {t : ℕ} (ht : t ≤ p.tf) {r : String} (hr : r ∈ p.regions) (c : ℝ) :
    1 ≤ 1 + acOf p a t r c * p.baseline_carbon_intensity t r := by
  have := mul_nonneg (ac_nonneg hadm hd hl ht hr c) (hci t ht r hr)
  linarith

include hci hg in
theorem share_range {t : ℕ} (ht : t ≤ p.tf) {r : String} (hr : r ∈ p.regions) {c : ℝ} {s : ℝ × ℝ × ℝ}
    (h : dmg md p c s r ∈ Set.Icc (-g) 1) : 0 ≤ share md p a t r c s ∧ share md p a t r c s ≤ 1 + g := by
  have hden := den_pos hadm hd hci hl ht hr c
  have h1 : 0 ≤ 1 - (if p.ignore_damages then 0 else dmg md p c s r) ∧
      1 - (if p.ignore_damages then 0 else dmg md p c s r) ≤ 1 + g := by
    split
    · constructor <;> linarith
    · constructor <;> linarith [h.1, h.2]
  refine ⟨div_nonneg h1.1 (by linarith), ?_⟩
  unfold share
  rw [div_le_iff₀ (by linarith)]
  nlinarith [h1.2]

include hci in
theorem share_continuous {t : ℕ} (ht : t ≤ p.tf) {r : String} (hr : r ∈ p.regions) (s : State) (sea : ℝ × ℝ × ℝ) :
    Continuous fun E => share md p a t r (cumNext p s E) sea := by
  have hc : Continuous fun E => cumNext p s E := by
    unfold cumNext
    split <;> fun_prop
  have hl' : Continuous fun E => learnOf p t (cumNext p s E) := by
    unfold learnOf
    refine Continuous.mul ?_ continuous_const
    refine Continuous.rpow_const ?_ fun x => Or.inl (soft_min_pos_one _).ne'
    exact (continuous_soft_min (s := 1)).comp (by fun_prop)
  have hdm : Continuous fun E => dmg md p (cumNext p s E) sea r := by
    unfold dmg
    cases hm : md.damage with
    | nodamage => exact continuous_const
    | COACCH =>
      have hf := formVal_continuous (d := p.noslr) (r := r) fun x => (hd.forms hm r hr x).1
      have : Continuous fun E => formVal (tempOf p (cumNext p s E) - 0.6) p.noslr r := by
        refine hf.comp ?_
        unfold tempOf; fun_prop
      simp only
      fun_prop
  unfold share
  refine Continuous.div ?_ ?_ fun E => ?_
  · split <;> fun_prop
  · unfold acOf; fun_prop
  · have := den_pos hadm hd hci hl ht hr (cumNext p s E)
    exact ne_of_gt (by linarith)

include hU in
theorem Kf_pos (hg : 0 ≤ g) {t : ℕ} (ht : t ≤ p.tf) {r : String} (hr : r ∈ p.regions) : 0 < Kf t r := by
  induction t with
  | zero =>
    rw [hU.init r hr]
    exact mul_pos (hadm.capital_pos r hr) (hadm.gdp_pos 0 (Nat.zero_le _) r hr)
  | succ t ih =>
    have h0 := ih (by omega)
    have hs := hU.step t ht r hr
    have h1 := (tfp_pos hadm ht hr).le
    have h2 := Real.rpow_nonneg (hadm.pop_pos _ ht r hr).le (1 - p.alpha)
    have h3 := Real.rpow_nonneg (soft_min_pos_ten (Kf (t + 1) r)).le p.alpha
    have h4 := hadm.dt_pos.le
    have h5 := hadm.sr_nonneg
    have h6 : 0 ≤ p.dt * p.sr * ((1 + g) * gdpOf p (t + 1) r (Kf (t + 1) r)) := by
      rw [gdpOf, if_neg (Nat.succ_ne_zero t)]; positivity
    have hA : 0 < 2 - (1 - p.dk) ^ p.dt := by linarith [dk_pow_le hadm]
    have : 0 < (2 - (1 - p.dk) ^ p.dt) * Kf (t + 1) r := by linarith
    exact (pos_iff_pos_of_mul_pos this).1 hA

include hci hg hU in
theorem fav_nonneg {t : ℕ} (ht : t ≤ p.tf) {r : String} (hr : r ∈ p.regions) :
    0 ≤ favourableEmissions p a g Kf t r := by
  unfold favourableEmissions
  split
  · exact hd.baseline_nonneg 0 (Nat.zero_le _) r hr
  · rename_i h0
    have h1 := (tfp_pos hadm ht hr).le
    have h2 := Real.rpow_nonneg (hadm.pop_pos _ ht r hr).le (1 - p.alpha)
    have h3 := Real.rpow_nonneg (soft_min_pos_ten (Kf t r)).le p.alpha
    have h4 : 0 ≤ 1 - a t r := by linarith [(hl.range t ht r hr).2]
    have h5 := hci t ht r hr
    rw [gdpOf, if_neg h0]; positivity

include hci hg hU in
theorem favWorld_nonneg {t : ℕ} (ht : t ≤ p.tf) : 0 ≤ favourableWorld p a g Kf t :=
  sumR_nonneg (p := p) fun r hr => fav_nonneg hadm hd hg hU hci hl ht hr

include hci hg hU in
theorem favCum_nonneg {t : ℕ} (ht : t ≤ p.tf) : 0 ≤ favourableCumulative p a g Kf t := by
  induction t with
  | zero => exact le_rfl
  | succ t ih =>
    have h1 := favWorld_nonneg hadm hd hg hU hci hl ht
    have h2 := favWorld_nonneg hadm hd hg hU hci hl (t := t) (by omega)
    have h3 := ih (by omega)
    have := hadm.dt_pos
    simp only [favourableCumulative]
    split <;> positivity

theorem cumNext_range {t : ℕ} {s : State} {E : ℝ} (hc : 0 ≤ s.cum ∧ s.cum ≤ favourableCumulative p a g Kf t)
    (hw : 0 ≤ s.world ∧ s.world ≤ favourableWorld p a g Kf t)
    (hE : 0 ≤ E ∧ E ≤ favourableWorld p a g Kf (t + 1)) :
    0 ≤ cumNext p s E ∧ cumNext p s E ≤ favourableCumulative p a g Kf (t + 1) := by
  have := hadm.dt_pos
  obtain ⟨a1, a2⟩ := hc
  obtain ⟨b1, b2⟩ := hw
  obtain ⟨c1, c2⟩ := hE
  simp only [favourableCumulative, cumNext]
  split
  · constructor
    · positivity
    · have : p.dt * (E + s.world) ≤ p.dt * (favourableWorld p a g Kf (t + 1) + favourableWorld p a g Kf t) := by
        gcongr
      linarith
  · constructor
    · positivity
    · gcongr

include hci hg hU in
theorem step_exists {t : ℕ} (ht : t < p.tf) {s : State} (hc : 0 ≤ s.cum ∧ s.cum ≤ favourableCumulative p a g Kf t)
    (hw : 0 ≤ s.world ∧ s.world ≤ favourableWorld p a g Kf t)
    (hK : ∀ r ∈ p.regions, 0 < s.K r ∧ s.K r ≤ Kf t r)
    (hdm : ∀ c, 0 ≤ c → c ≤ favourableCumulative p a g Kf (t + 1) → ∀ r ∈ p.regions,
      dmg md p c (seaNext p s.sea (tempOf p s.cum)) r ∈ Set.Icc (-g) 1) :
    ∃ s', Step md p a (g := g) (Kf := Kf) t s s' := by
  have hA : 0 < 2 - (1 - p.dk) ^ p.dt := by linarith [dk_pow_le hadm]
  have hg1 : 0 < 1 + g := by linarith
  set Y : String → ℝ := fun r => get_TFP_value p (t + 1) r * p.population (t + 1) r ^ (1 - p.alpha) with hY
  have hY0 : ∀ r ∈ p.regions, 0 ≤ Y r := fun r hr =>
    mul_nonneg (tfp_pos hadm ht hr).le (Real.rpow_nonneg (hadm.pop_pos _ ht r hr).le _)
  have hgdp : ∀ r K, gdpOf p (t + 1) r K = Y r * soft_min K 10 ^ p.alpha := by
    intro r K; rw [gdpOf, if_neg (Nat.succ_ne_zero t)]
  set sea := seaNext p s.sea (tempOf p s.cum) with hsea
  have htop : (p.regions.map fun r => (1 - a (t + 1) r) * p.baseline_carbon_intensity (t + 1) r *
      ((1 + g) * Y r * soft_min (Kf (t + 1) r) 10 ^ p.alpha)).sum = favourableWorld p a g Kf (t + 1) := by
    unfold favourableWorld
    congr 1
    refine List.map_congr_left fun r hr => ?_
    rw [favourableEmissions, if_neg (Nat.succ_ne_zero t), hgdp]; ring
  obtain ⟨E, K, hE0, hE1, hKs, hsum⟩ := period_exists (L := p.regions) (A := 2 - (1 - p.dk) ^ p.dt)
    (k := p.dt * p.sr) (al := p.alpha) (B := s.K) (Bf := Kf t) (Y := fun r => (1 + g) * Y r)
    (c := fun r => (1 - a (t + 1) r) * p.baseline_carbon_intensity (t + 1) r) (Kf := Kf (t + 1))
    (D := fun r E => 1 - share md p a (t + 1) r (cumNext p s E) sea / (1 + g))
    hA (mul_nonneg hadm.dt_pos.le hadm.sr_nonneg) hadm.alpha_nonneg hadm.alpha_lt
    (fun r hr => (hK r hr).1) (fun r hr => (hK r hr).2) (fun r hr => mul_nonneg hg1.le (hY0 r hr))
    (fun r hr => mul_nonneg (by linarith [(hl.range _ ht r hr).2]) (hci _ ht r hr))
    (fun r hr => by
      have := hU.step t ht r hr
      rw [hgdp] at this
      linear_combination this)
    (fun r hr => by
      have := share_continuous hadm hd hci hl ht hr s sea
      fun_prop)
    (fun E hE0 hE1 r hr => by
      rw [htop] at hE1
      have hcr := cumNext_range hadm hd hl hc hw ⟨hE0, hE1⟩
      obtain ⟨h1, h2⟩ := share_range hadm hd hg hci hl ht hr (hdm _ hcr.1 hcr.2 r hr)
      have h3 : share md p a (t + 1) r (cumNext p s E) sea / (1 + g) ≤ 1 := (div_le_one hg1).2 h2
      have h4 : 0 ≤ share md p a (t + 1) r (cumNext p s E) sea / (1 + g) := div_nonneg h1 hg1.le
      constructor <;> linarith)
  rw [htop] at hE1
  refine ⟨⟨cumNext p s E, E, sea, K⟩, rfl, rfl, ?_, ?_, hE0, hE1, fun r hr => (hKs r hr).2⟩
  · intro r hr
    have := (hKs r hr).1
    simp only [hgdp]
    rw [this]
    field_simp
    ring
  · refine Eq.trans ?_ hsum
    unfold Params.sumR
    congr 1
    refine List.map_congr_left fun r hr => ?_
    simp only [hgdp]
    field_simp
    ring

theorem state_step {t : ℕ} (h : ∃ s', Step md p a (g := g) (Kf := Kf) t (state md p a g Kf t) s') :
    Step md p a (g := g) (Kf := Kf) t (state md p a g Kf t) (state md p a g Kf (t + 1)) := by
  have : state md p a g Kf (t + 1) = h.choose := by
    conv_lhs => unfold state
    exact dif_pos h
  rw [this]; exact h.choose_spec

/-- what holds up to a period -/
structure Inv (n : ℕ) : Prop where
  steps : ∀ m < n, Step md p a (g := g) (Kf := Kf) m (state md p a g Kf m) (state md p a g Kf (m + 1))
  cum : ∀ m ≤ n, 0 ≤ (state md p a g Kf m).cum ∧ (state md p a g Kf m).cum ≤ favourableCumulative p a g Kf m
  world : ∀ m ≤ n, 0 ≤ (state md p a g Kf m).world ∧ (state md p a g Kf m).world ≤ favourableWorld p a g Kf m
  K : ∀ m ≤ n, ∀ r ∈ p.regions, 0 < (state md p a g Kf m).K r ∧ (state md p a g Kf m).K r ≤ Kf m r

omit hadm hd hl in
theorem Inv.sea {n : ℕ} (h : Inv (md := md) (p := p) (a := a) (g := g) (Kf := Kf) n) {m : ℕ} (hm : m ≤ n) :
    (state md p a g Kf m).sea = seaOf p (fun k => tempOf p (state md p a g Kf k).cum) m := by
  induction m with
  | zero => rfl
  | succ m ih =>
    rw [(h.steps m hm).sea, ih (by omega)]
    rfl

/-- the damages along a path that follows the states and then goes to cumulative emissions `c` -/
theorem Inv.dmg {n : ℕ} (h : Inv (md := md) (p := p) (a := a) (g := g) (Kf := Kf) n) (hn : n < p.tf)
    (hfc : ∀ m ≤ p.tf, 0 ≤ favourableCumulative p a g Kf m) (hg : 0 ≤ g) {c : ℝ} (hc : 0 ≤ c)
    (hc' : c ≤ favourableCumulative p a g Kf (n + 1)) {r : String} (hr : r ∈ p.regions) :
    dmg md p c (seaNext p (state md p a g Kf n).sea (tempOf p (state md p a g Kf n).cum)) r ∈ Set.Icc (-g) 1 := by
  cases hm : md.damage with
  | nodamage => simp only [CI.dmg, hm]; exact ⟨by linarith, by norm_num⟩
  | COACCH =>
    have hT : ∀ {x y : ℝ}, x ≤ y → tempOf p x ≤ p.T0 + p.TCRE * y := by
      intro x y hxy
      unfold tempOf
      have := mul_le_mul_of_nonneg_left hxy hd.TCRE_nonneg
      linarith
    have hT0 : ∀ {x : ℝ}, 0 ≤ x → p.T0 ≤ tempOf p x := by
      intro x hx
      unfold tempOf
      have := mul_nonneg hd.TCRE_nonneg hx
      linarith
    set T : ℕ → ℝ := fun k => if k ≤ n then tempOf p (state md p a g Kf k).cum else
      if k = n + 1 then tempOf p c else p.T0 with hTdef
    have hposs : PossibleTemperature p a g Kf T := by
      constructor
      · simp only [hTdef, Nat.zero_le, if_true]
        show p.T0 + p.TCRE * 0 = p.T0
        ring
      · intro t ht
        simp only [hTdef]
        split
        · rename_i hk
          exact ⟨hT0 (h.cum t hk).1, hT (h.cum t hk).2⟩
        · split
          · rename_i hk; subst hk
            exact ⟨hT0 hc, hT hc'⟩
          · refine ⟨le_rfl, ?_⟩
            have := mul_nonneg hd.TCRE_nonneg (hfc t ht)
            unfold favourableTemperature; linarith
    have hs : seaOf p T (n + 1) = seaNext p (state md p a g Kf n).sea (tempOf p (state md p a g Kf n).cum) := by
      have e : seaOf p T n = (state md p a g Kf n).sea := by
        rw [h.sea le_rfl]
        refine seaOf_congr p fun k hk => ?_
        simp only [hTdef]; rw [if_pos hk.le]
      have e2 : T n = tempOf p (state md p a g Kf n).cum := by simp only [hTdef, le_refl, if_true]
      rw [← e, ← e2]; rfl
    have e3 : T (n + 1) = tempOf p c := by
      simp only [hTdef]; rw [if_neg (by omega), if_pos trivial]
    have := (hl.damages hm T hposs (n + 1) hn r hr).2
    have e4 : damageOf p T (n + 1) r =
        CI.dmg md p c (seaNext p (state md p a g Kf n).sea (tempOf p (state md p a g Kf n).cum)) r := by
      simp only [damageOf, seaDamageOf, CI.dmg, hm, seaLevelOf, hs, e3]
      rfl
    rw [← e4]; exact this

include hci hg hU in
theorem inv {n : ℕ} (hn : n ≤ p.tf) : Inv (md := md) (p := p) (a := a) (g := g) (Kf := Kf) n := by
  induction n with
  | zero =>
    have hw0 : favourableWorld p a g Kf 0 = p.sumR fun r => p.baseline_emissions 0 r := rfl
    refine ⟨fun m hm => absurd hm (by omega), ?_, ?_, ?_⟩
    · intro m hm
      obtain rfl : m = 0 := by omega
      exact ⟨le_rfl, le_rfl⟩
    · intro m hm
      obtain rfl : m = 0 := by omega
      exact ⟨sumR_nonneg fun r hr => hd.baseline_nonneg 0 (Nat.zero_le _) r hr, hw0.ge⟩
    · intro m hm r hr
      obtain rfl : m = 0 := by omega
      refine ⟨mul_pos (hadm.capital_pos r hr) (hadm.gdp_pos 0 (Nat.zero_le _) r hr), ?_⟩
      exact (hU.init r hr).ge
  | succ n ih =>
    have h := ih (by omega)
    have hfc : ∀ m ≤ p.tf, 0 ≤ favourableCumulative p a g Kf m :=
      fun m hm => favCum_nonneg hadm hd hg hU hci hl hm
    have hst := state_step hadm hd hl (step_exists hadm hd hg hU hci hl hn (h.cum n le_rfl) (h.world n le_rfl)
      (h.K n le_rfl) fun c h0 h1 r hr => h.dmg hadm hd hl hn hfc hg h0 h1 hr)
    have hcr := cumNext_range hadm hd hl (h.cum n le_rfl) (h.world n le_rfl) ⟨hst.world_nonneg, hst.world_le⟩
    rw [← hst.cum] at hcr
    refine ⟨?_, ?_, ?_, ?_⟩
    · intro m hm
      rcases Nat.lt_succ_iff_lt_or_eq.1 hm with h' | rfl
      · exact h.steps m h'
      · exact hst
    · intro m hm
      rcases Nat.le_succ_iff.1 hm with h' | rfl
      · exact h.cum m h'
      · exact hcr
    · intro m hm
      rcases Nat.le_succ_iff.1 hm with h' | rfl
      · exact h.world m h'
      · exact ⟨hst.world_nonneg, hst.world_le⟩
    · intro m hm
      rcases Nat.le_succ_iff.1 hm with h' | rfl
      · exact h.K m h'
      · exact hst.K_pos

/-- net GDP along the states -/
noncomputable def netAt (md : Modules) (p : Params) (a : ℕ → String → ℝ) (g : ℝ) (Kf : ℕ → String → ℝ)
    (t : ℕ) (r : String) : ℝ :=
  gdpOf p t r ((state md p a g Kf t).K r) *
    share md p a t r (state md p a g Kf t).cum (state md p a g Kf t).sea

/-- the drivers: the abatement path, with the baseline emissions and capital stocks of the states -/
noncomputable def x (md : Modules) (p : Params) (a : ℕ → String → ℝ) (g : ℝ) (Kf : ℕ → String → ℝ) : Drivers :=
  ⟨a, fun _ _ => 0, fun _ _ => 0, fun _ => 0,
    some (fun t r => p.baseline_carbon_intensity t r * netAt md p a g Kf t r,
      fun t r => (state md p a g Kf t).K r)⟩

section
variable {n : ℕ} (hi : Inv (md := md) (p := p) (a := a) (g := g) (Kf := Kf) p.tf)
include hi

theorem x_gE {t : ℕ} (ht : t ≤ p.tf) : (x md p a g Kf).gE p t = (state md p a g Kf t).world := by
  cases t with
  | zero =>
    refine sumR_congr fun r hr => ?_
    show (1 - a 0 r) * p.baseline_emissions 0 r = _
    rw [hl.starts_at_zero r hr]; ring
  | succ t =>
    rw [← (hi.steps t ht).world]
    rfl

theorem x_cum {t : ℕ} (ht : t ≤ p.tf) : (x md p a g Kf).cum p t = (state md p a g Kf t).cum := by
  induction t with
  | zero => rfl
  | succ t ih =>
    rw [(hi.steps t ht).cum]
    simp only [Drivers.cum, cumNext]
    rw [ih (by omega), x_gE hadm hd hl hi ht, x_gE hadm hd hl hi (t := t) (by omega)]

theorem x_temp {t : ℕ} (ht : t ≤ p.tf) : (x md p a g Kf).temp p t = tempOf p (state md p a g Kf t).cum := by
  simp only [Drivers.temp, tempOf, x_cum hadm hd hl hi ht]

theorem x_sea {t : ℕ} (ht : t ≤ p.tf) : (state md p a g Kf t).sea =
    ((x md p a g Kf).th p t, (x md p a g Kf).gs p t, (x md p a g Kf).gi p t) := by
  induction t with
  | zero =>
    show sea0 p = _
    simp only [sea0, Drivers.th, Drivers.gs, Drivers.gi, Prod.mk.injEq, and_true]
    unfold slr_thermal_expansion_init SeaLevelRise.thermal_init thermal_adjust_rate thermal_equil; ring
  | succ t ih =>
    rw [(hi.steps t ht).sea, ih (by omega)]
    simp only [seaNext, Drivers.th, Drivers.gs, Drivers.gi, thermal_step, gsic_step, gis_step,
      x_temp hadm hd hl hi (t := t) (by omega)]

theorem x_slr {t : ℕ} (ht : t ≤ p.tf) : (x md p a g Kf).slr p t = lvl (state md p a g Kf t).sea := by
  rw [x_sea hadm hd hl hi ht]; rfl

theorem x_dam {t : ℕ} (ht : t ≤ p.tf) (r : String) : (x md p a g Kf).dam md p t r =
    dmg md p (state md p a g Kf t).cum (state md p a g Kf t).sea r := by
  unfold Drivers.dam dmg
  cases md.damage with
  | nodamage => rfl
  | COACCH =>
    simp only [Drivers.damN, Drivers.damS, x_temp hadm hd hl hi ht, x_slr hadm hd hl hi ht,
      x_slr hadm hd hl hi (Nat.zero_le _)]
    rfl

theorem x_learn {t : ℕ} (ht : t ≤ p.tf) : (x md p a g Kf).learn p t = learnOf p t (state md p a g Kf t).cum := by
  simp only [Drivers.learn, Drivers.lbd, learnOf, x_cum hadm hd hl hi ht]

theorem x_cost {t : ℕ} (ht : t ≤ p.tf) (r : String) : (x md p a g Kf).cost md p t r =
    acOf p a t r (state md p a g Kf t).cum * (p.baseline_carbon_intensity t r * netAt md p a g Kf t r) := by
  have h1 : (x md p a g Kf).balance md t r = 0 := by unfold Drivers.balance; cases md.trade <;> rfl
  have h2 : (x md p a g Kf).area p t r = (x md p a g Kf).learn p t * p.MAC_scaling_factor r * p.MAC_gamma *
    a t r ^ (p.MAC_beta + 1) / (p.MAC_beta + 1) * (p.baseline_carbon_intensity t r * netAt md p a g Kf t r) := rfl
  rw [Drivers.cost, h1, h2, x_learn hadm hd hl hi ht, add_zero]
  rfl

include hci in
/-- net GDP is what is left of gross GDP after damages and costs -/
theorem x_netOf {t : ℕ} (ht : t ≤ p.tf) {r : String} (hr : r ∈ p.regions) :
    (x md p a g Kf).netOf md p t r (gdpOf p t r ((state md p a g Kf t).K r)) = netAt md p a g Kf t r := by
  have h1 : (x md p a g Kf).transfer md t r = 0 := by unfold Drivers.transfer; cases md.transfer <;> rfl
  have hden := den_pos hadm hd hci hl ht hr (state md p a g Kf t).cum
  rw [Drivers.netOf, h1, x_dam hadm hd hl hi ht, x_cost hadm hd hl hi ht, netAt, share]
  set N := (1 - (if p.ignore_damages then 0 else
    dmg md p (state md p a g Kf t).cum (state md p a g Kf t).sea r)) with hN
  set q := acOf p a t r (state md p a g Kf t).cum * p.baseline_carbon_intensity t r with hq
  have hne : 1 + q ≠ 0 := by linarith
  have e : acOf p a t r (state md p a g Kf t).cum * (p.baseline_carbon_intensity t r *
      (gdpOf p t r ((state md p a g Kf t).K r) * (N / (1 + q)))) =
      q * (gdpOf p t r ((state md p a g Kf t).K r) * (N / (1 + q))) := by rw [hq]; ring
  rw [e]
  field_simp
  ring

theorem x_gross {t : ℕ} (r : String) : (x md p a g Kf).gross md p t r =
    gdpOf p t r ((state md p a g Kf t).K r) := by
  unfold Drivers.gross gdpOf
  split <;> rfl

include hci hg hU in
theorem x_net_nonneg {t : ℕ} (ht : t ≤ p.tf) {r : String} (hr : r ∈ p.regions) :
    0 ≤ netAt md p a g Kf t r := by
  have hG : 0 < gdpOf p t r ((state md p a g Kf t).K r) := by
    rw [← x_gross hadm hd hl hi]; exact Drivers.gross_pos _ md p hadm ht hr
  refine mul_nonneg hG.le (share_range hadm hd hg hci hl ht hr ?_).1
  cases t with
  | zero =>
    have e : dmg md p (state md p a g Kf 0).cum (state md p a g Kf 0).sea r = 0 := by
      unfold dmg
      cases md.damage with
      | nodamage => rfl
      | COACCH =>
        have h1 : (state md p a g Kf 0).cum = 0 := rfl
        have h2 : (state md p a g Kf 0).sea = sea0 p := rfl
        simp only [h1, h2, tempOf, mul_zero, add_zero, sub_self]
    rw [e]; exact ⟨by linarith, by norm_num⟩
  | succ t =>
    have hst := hi.steps t ht
    rw [hst.sea]
    have hinv : Inv (md := md) (p := p) (a := a) (g := g) (Kf := Kf) t :=
      ⟨fun m hm => hi.steps m (by omega), fun m hm => hi.cum m (by omega), fun m hm => hi.world m (by omega),
        fun m hm => hi.K m (by omega)⟩
    exact hinv.dmg hadm hd hl ht (fun m hm => favCum_nonneg hadm hd hg hU hci hl hm) hg (hi.cum _ ht).1
      (hi.cum _ ht).2 hr

theorem possible : PossibleTemperature p a g Kf fun t => tempOf p (state md p a g Kf t).cum := by
  constructor
  · show p.T0 + p.TCRE * 0 = _; ring
  · intro t ht
    have h := hi.cum t ht
    have h1 := mul_nonneg hd.TCRE_nonneg h.1
    have h2 := mul_le_mul_of_nonneg_left h.2 hd.TCRE_nonneg
    unfold tempOf favourableTemperature
    constructor <;> linarith

theorem x_damageOf (hm : md.damage = .COACCH) {t : ℕ} (ht : t ≤ p.tf) {r : String} :
    (x md p a g Kf).damS p t r = seaDamageOf p (fun t => tempOf p (state md p a g Kf t).cum) t r ∧
    (x md p a g Kf).dam md p t r = damageOf p (fun t => tempOf p (state md p a g Kf t).cum) t r := by
  have e1 : (x md p a g Kf).damS p t r = seaDamageOf p (fun t => tempOf p (state md p a g Kf t).cum) t r := by
    unfold Drivers.damS seaDamageOf
    rw [x_slr hadm hd hl hi ht, x_slr hadm hd hl hi (Nat.zero_le _), hi.sea ht, hi.sea (Nat.zero_le _)]
    rfl
  refine ⟨e1, ?_⟩
  unfold Drivers.dam damageOf
  rw [hm, ← e1]
  simp only [Drivers.damN, x_temp hadm hd hl hi ht]

include hci hg hU in
theorem dmg_range {t : ℕ} (ht : t ≤ p.tf) {r : String} (hr : r ∈ p.regions) :
    dmg md p (state md p a g Kf t).cum (state md p a g Kf t).sea r ∈ Set.Icc (-g) 1 := by
  rw [← x_dam hadm hd hl hi ht]
  cases hm : md.damage with
  | nodamage => simp only [Drivers.dam, hm]; exact ⟨by linarith, by norm_num⟩
  | COACCH =>
    rw [(x_damageOf hadm hd hl hi hm ht).2]
    exact (hl.damages hm _ (possible hadm hd hl hi) t ht r hr).2

include hci hg hU in
theorem x_em_range {t : ℕ} (ht : t ≤ p.tf) {r : String} (hr : r ∈ p.regions) :
    0 ≤ (x md p a g Kf).em p t r ∧ (x md p a g Kf).em p t r ≤ favourableEmissions p a g Kf t r := by
  have h1 : 0 ≤ 1 - a t r := by linarith [(hl.range t ht r hr).2]
  cases t with
  | zero =>
    have e : (x md p a g Kf).em p 0 r = p.baseline_emissions 0 r := by
      show (1 - a 0 r) * p.baseline_emissions 0 r = _
      rw [hl.starts_at_zero r hr]; ring
    rw [e]
    exact ⟨hd.baseline_nonneg 0 (Nat.zero_le _) r hr, le_rfl⟩
  | succ t =>
    have e : (x md p a g Kf).em p (t + 1) r = (1 - a (t + 1) r) * (p.baseline_carbon_intensity (t + 1) r *
      netAt md p a g Kf (t + 1) r) := rfl
    have h2 := hci _ ht r hr
    have h3 := x_net_nonneg hadm hd hg hU hci hl hi ht hr
    rw [e]
    refine ⟨by positivity, ?_⟩
    rw [favourableEmissions, if_neg (Nat.succ_ne_zero t)]
    refine mul_le_mul_of_nonneg_left (mul_le_mul_of_nonneg_left ?_ h2) h1
    have hs := share_range hadm hd hg hci hl ht hr (dmg_range hadm hd hg hU hci hl hi ht hr)
    have h4 : gdpOf p (t + 1) r ((state md p a g Kf (t + 1)).K r) ≤ gdpOf p (t + 1) r (Kf (t + 1) r) := by
      simp only [gdpOf, if_neg (Nat.succ_ne_zero t)]
      have h5 := (tfp_pos hadm ht hr).le
      have h6 := Real.rpow_nonneg (hadm.pop_pos _ ht r hr).le (1 - p.alpha)
      have h7 : soft_min ((state md p a g Kf (t + 1)).K r) 10 ^ p.alpha ≤ soft_min (Kf (t + 1) r) 10 ^ p.alpha :=
        Real.rpow_le_rpow (soft_min_pos_ten _).le
          ((soft_min_strictMono (by norm_num)).monotone (hi.K _ ht r hr).2) hadm.alpha_nonneg
      gcongr
    have h8 : 0 ≤ gdpOf p (t + 1) r (Kf (t + 1) r) := by
      have : 0 < gdpOf p (t + 1) r ((state md p a g Kf (t + 1)).K r) := by
        rw [← x_gross hadm hd hl hi]; exact Drivers.gross_pos _ md p hadm ht hr
      linarith
    unfold netAt
    calc _ ≤ gdpOf p (t + 1) r (Kf (t + 1) r) * (1 + g) := mul_le_mul h4 hs.2 hs.1 h8
      _ = _ := mul_comm _ _

include hci hg hU in
/-- The construction meets all conditions. -/
theorem ok (huse : p.use_carbon_intensity_for_baseline = true) (htr : md.trade ≠ .globalcostpool)
    (heff : p.effort_sharing_regime = "noregime" ∨
      (p.effort_sharing_regime = "equal_mitigation_costs" ∧ ∀ t ≤ p.tf, ∀ r ∈ p.regions, a t r = 0)) :
    (x md p a g Kf).Ok md p := by
  have hT : ∀ t ≤ p.tf, 0 ≤ (x md p a g Kf).temp p t ∧
      (x md p a g Kf).temp p t ≤ favourableTemperature p a g Kf t := by
    intro t ht
    rw [x_temp hadm hd hl hi ht]
    have := (possible hadm hd hl hi).range t ht
    exact ⟨hd.T0_nonneg.trans this.1, this.2⟩
  have hdt := hadm.dt_pos
  have hsl := Drivers.slr_ranges (p := p) (x := x md p a g Kf) hadm.dt_pos.le hd.T0_nonneg
    (fun t ht => (hT t ht).1)
    (fun t ht => by
      refine le_trans ?_ (hl.melt t ht).1
      have := (hT t ht).2
      gcongr)
    (fun t ht => by
      refine le_trans ?_ (hl.melt t ht).2
      have := (hT t ht).2
      gcongr)
  have hE := fun {t} (ht : t ≤ p.tf) => hi.world t ht
  have hem := fun {t} (ht : t ≤ p.tf) {r} (hr : r ∈ p.regions) => x_em_range hadm hd hg hU hci hl hi ht hr
  have hlearn : ∀ t ≤ p.tf, favourableCumulative p a g Kf t ≤ p.cumulative_global_baseline_emissions t →
      learnOf p t (state md p a g Kf t).cum ≤ 1 := by
    intro t ht hc
    have hlog : p.log_LBD_rate ≤ 0 := by
      unfold Params.log_LBD_rate
      exact div_nonpos_of_nonpos_of_nonneg (Real.log_nonpos hadm.lbd_pos.le hd.lbd_le)
        (Real.log_nonneg (by norm_num))
    have h1 : 1 ≤ soft_min ((p.cumulative_global_baseline_emissions t - (state md p a g Kf t).cum) / p.LBD_scaling
        + 1) 1 := by
      have h2 := soft_min_gt_self
        ((p.cumulative_global_baseline_emissions t - (state md p a g Kf t).cum) / p.LBD_scaling + 1) one_pos
      have h4 : 0 ≤ (p.cumulative_global_baseline_emissions t - (state md p a g Kf t).cum) / p.LBD_scaling :=
        div_nonneg (by linarith [(hi.cum t ht).2]) hadm.lbd_scaling.le
      linarith
    have b2 := Real.rpow_le_one_of_one_le_of_nonpos h1 hlog
    have h5 : (1 : ℝ) ≤ (1 + p.LOT_rate) ^ (t : ℝ) :=
      Real.one_le_rpow (by linarith [hd.lot_nonneg]) (Nat.cast_nonneg t)
    have b3 : 0 < Drivers.lot p t := by unfold Drivers.lot; positivity
    have b4 : Drivers.lot p t ≤ 1 := (div_le_one (by linarith)).2 h5
    exact mul_le_one₀ b2 b3.le b4
  have hprice : ∀ t ≤ p.tf, ∀ r, (x md p a g Kf).price p t r =
      learnOf p t (state md p a g Kf t).cum * p.MAC_scaling_factor r * p.MAC_gamma * a t r ^ p.MAC_beta := by
    intro t ht r
    rw [← x_learn hadm hd hl hi ht]; rfl
  have hcost : ∀ t ≤ p.tf, ∀ r ∈ p.regions, 0 ≤ (x md p a g Kf).cost md p t r := by
    intro t ht r hr
    rw [x_cost hadm hd hl hi ht]
    exact mul_nonneg (ac_nonneg hadm hd hl ht hr _)
      (mul_nonneg (hci t ht r hr) (x_net_nonneg hadm hd hg hU hci hl hi ht hr))
  have ne1 : "noregime" ≠ "equal_mitigation_costs" := by decide
  have ne2 : "noregime" ≠ "equal_total_costs" := by decide
  have ne3 : "noregime" ≠ "per_cap_convergence" := by decide
  have ne4 : "equal_mitigation_costs" ≠ "equal_total_costs" := by decide
  have ne5 : "equal_mitigation_costs" ≠ "per_cap_convergence" := by decide
  constructor
  case a_init => exact hl.starts_at_zero
  case a_nonneg => exact fun t ht r hr => (hl.range t ht r hr).1
  case a_le => exact fun t ht r hr => (hl.range t ht r hr).2.trans (by norm_num)
  case exogenous => intro h; rw [huse] at h; cases h
  case endogenous =>
    intro _
    refine ⟨_, rfl, ?_, fun r hr => rfl, ?_⟩
    · intro t ht r hr
      show p.baseline_carbon_intensity t r * netAt md p a g Kf t r = _
      rw [Drivers.net, x_gross hadm hd hl hi, x_netOf hadm hd hci hl hi ht hr]
    · intro t ht r hr
      have hc := (hi.steps t ht).cap r hr
      have hnet := x_netOf hadm hd hci hl hi (t := t + 1) ht hr
      have e : Drivers.grossOf p (t + 1) r ((state md p a g Kf (t + 1)).K r) =
          gdpOf p (t + 1) r ((state md p a g Kf (t + 1)).K r) := by
        rw [gdpOf, if_neg (Nat.succ_ne_zero t)]; rfl
      unfold Drivers.CapStep
      simp only [e, hnet]
      have h2 : (2 - (1 - p.dk) ^ p.dt) * (state md p a g Kf (t + 1)).K r =
        (state md p a g Kf t).K r + p.dt * p.sr * netAt md p a g Kf (t + 1) r := hc
      field_simp
      linarith
  case trade => exact htr
  case bal_sum => intro _ t ht; exact sumR_zero
  case tr_init => intro _ r hr; rfl
  case tr_sum => intro _ t ht; exact sumR_zero
  case tr_max =>
    intro hm t ht r hr
    have hgp := (x md p a g Kf).gross_pos md p hadm ht hr
    have hD : 0 ≤ (x md p a g Kf).dam md p t r := by
      cases hdm : md.damage with
      | nodamage => unfold Drivers.dam; rw [hdm]
      | COACCH =>
        have := (dmg_range hadm hd hg hU hci hl hi ht hr).1
        rw [← x_dam hadm hd hl hi ht, hl.pool hm hdm, neg_zero] at this
        rw [hl.pool hm hdm]
        exact this
    show -(_) * _ ≤ (0 : ℝ)
    nlinarith [mul_nonneg hD hgp.le]
  case target => intro t ht T hT' hy; exact (hT t ht).2.trans (hl.target T hT' t ht hy)
  case reversible => intro _; exact hd.reversible
  case budget =>
    intro t ht b hb hy
    rw [x_cum hadm hd hl hi ht]; exact (hi.cum t ht).2.trans (hl.budget b hb t ht hy).1
  case cum_nonneg => intro t ht; rw [x_cum hadm hd hl hi ht]; exact (hi.cum t ht).1
  case global_inertia =>
    intro t ht i hi'
    rw [x_gE hadm hd hl hi ht, x_gE hadm hd hl hi (t := t) (by omega)]
    have := hl.inertia_global i hi' t ht
    have h1 := (hE (t := t + 1) ht).1
    have h2 := (hE (t := t) (by omega)).2
    refine le_trans this ?_
    linarith
  case regional_inertia =>
    intro t ht r hr i hi'
    have := hl.inertia_regional i hi' t ht r hr
    have h1 := (hem (t := t + 1) ht hr).1
    have h2 := (hem (t := t) (by omega) hr).2
    linarith
  case global_min =>
    intro t ht l hl'
    rw [x_gE hadm hd hl hi ht]
    linarith [hl.min_global l hl', (hE ht).1]
  case regional_min =>
    intro t ht r hr l hl'
    linarith [hl.min_regional l hl', (hem ht hr).1]
  case start => exact hd.start
  case non_increasing =>
    intro t ht r hr hy hn
    have h1 := hl.non_increasing hn t ht hy r hr
    have h2 := (hem (t := t + 1) ht hr).2
    have h3 := (hem (t := t) (by omega) hr).1
    linarith
  case net_zero =>
    intro t ht hy hn hb
    obtain ⟨b, hb⟩ := Option.ne_none_iff_exists'.1 hb
    rw [x_gE hadm hd hl hi ht]
    exact (hE ht).2.trans ((hl.budget b hb t ht hy).2 hn)
  case slr_nonneg =>
    intro t ht
    have := hsl t ht
    exact ⟨this.1, by linarith [this.2.1.1], by linarith [this.2.2.1]⟩
  case forms =>
    intro hm t ht r hr
    have hf := hd.forms hm r hr
    exact ⟨(hf _).1, (hf _).1, (hf _).2, (hf _).2⟩
  case damS_bounds =>
    intro hm t ht r hr
    rw [(x_damageOf hadm hd hl hi hm ht).1]
    exact (hl.damages hm _ (possible hadm hd hl hi) t ht r hr).1
  case price_nonneg =>
    intro t ht r hr
    have h1 := (learnOf_pos hadm hd hl t (state md p a g Kf t).cum).le
    have h2 := hd.scaling_nonneg r hr
    have h3 := hd.gamma_nonneg
    have h4 : 0 ≤ (a t r) ^ p.MAC_beta := Real.rpow_nonneg (hl.range t ht r hr).1 _
    rw [hprice t ht]; positivity
  case price_le =>
    intro t ht r hr
    have h3 := hd.gamma_nonneg
    rw [hprice t ht]
    rcases hl.price t ht r hr with h0 | ⟨hz, h0⟩
    · rw [h0, Real.zero_rpow hadm.beta_pos.ne', mul_zero]; positivity
    · have l1 := learnOf_pos hadm hd hl t (state md p a g Kf t).cum
      have l2 := hlearn t ht hz
      have h4 : 0 ≤ p.MAC_scaling_factor r * a t r ^ p.MAC_beta :=
        mul_nonneg (hd.scaling_nonneg r hr) (Real.rpow_nonneg (hl.range t ht r hr).1 _)
      have e : learnOf p t (state md p a g Kf t).cum * p.MAC_scaling_factor r * p.MAC_gamma * a t r ^ p.MAC_beta =
        p.MAC_gamma * (learnOf p t (state md p a g Kf t).cum * (p.MAC_scaling_factor r * a t r ^ p.MAC_beta)) := by
        ring
      rw [e]
      have : learnOf p t (state md p a g Kf t).cum * (p.MAC_scaling_factor r * a t r ^ p.MAC_beta) ≤ 2 := by nlinarith
      nlinarith
  case rel_costs_min =>
    intro t ht r hr
    have hgp := (x md p a g Kf).gross_pos md p hadm ht hr
    have h1 := div_nonneg (hcost t ht r hr) hgp.le
    have := hl.cost_floor
    split <;> linarith
  case effort =>
    constructor
    · intro t ht r hr he
      rcases heff with h | ⟨_, h⟩
      · rw [h] at he; exact absurd he ne1
      · have h0 : ((x md p a g Kf).env md p).R .rel_mitigation_costs t r = 0 := by
          show (x md p a g Kf).cost md p t r / (x md p a g Kf).gross md p t r = 0
          rw [x_cost hadm hd hl hi ht, acOf, h t ht r hr, Real.zero_rpow (by linarith [hadm.beta_pos])]
          simp
        have h1 : ((x md p a g Kf).env md p).G .effort_sharing_common_level t = 0 := rfl
        rw [h0, h1]; norm_num
    · intro t ht r hr he
      rcases heff with h | ⟨h, _⟩
      · rw [h] at he; exact absurd he ne2
      · rw [h] at he; exact absurd he ne4
    · intro t ht r hr he
      rcases heff with h | ⟨h, _⟩
      · rw [h] at he; exact absurd he ne3
      · rw [h] at he; exact absurd he ne5
  case effort_scope =>
    intro he
    rcases heff with h | ⟨h, _⟩
    · rw [h] at he; exact absurd he ne3
    · rw [h] at he; exact absurd he ne5

end

end
end CI

/-- With the carbon-intensity baseline, every abatement path for which the limits are met by the favourable economy is
part of a solution. -/
theorem C49_path_feasible_carbon_intensity (hadm : p.Admissible) (hd : OrdinaryData md p) (hg : 0 ≤ g)
    (hU : FavourableGrowth p g Kf)
    (hl : PathWithinLimitsCI p a g Kf md) (huse : p.use_carbon_intensity_for_baseline = true)
    (htr : md.trade ≠ .globalcostpool)
    (heff : p.effort_sharing_regime = "noregime" ∨
      (p.effort_sharing_regime = "equal_mitigation_costs" ∧ ∀ t ≤ p.tf, ∀ r ∈ p.regions, a t r = 0)) :
    ∃ σ, Solution md p σ ∧ ∀ t r, σ.R .relative_abatement t r = a t r :=
  have hci : ∀ t ≤ p.tf, ∀ r ∈ p.regions, 0 ≤ p.baseline_carbon_intensity t r := fun t ht r hr =>
    div_nonneg (hd.baseline_nonneg t ht r hr) (hadm.gdp_pos t ht r hr).le
  ⟨(CI.x md p a g Kf).env md p, Drivers.build_solution hadm
    (CI.ok hadm hd hg hU hci hl (CI.inv hadm hd hg hU hci hl le_rfl) huse htr heff), fun _ _ => rfl⟩

/-- Without abatement: emissions are carbon intensity times net GDP, and there are no abatement costs. -/
theorem C49_no_policy_feasible_carbon_intensity (hadm : p.Admissible) (hd : OrdinaryData md p) (hg : 0 ≤ g)
    (hU : FavourableGrowth p g Kf)
    (hl : PathWithinLimitsCI p (fun _ _ => 0) g Kf md) (huse : p.use_carbon_intensity_for_baseline = true)
    (htr : md.trade ≠ .globalcostpool)
    (heff : p.effort_sharing_regime = "noregime" ∨ p.effort_sharing_regime = "equal_mitigation_costs") :
    ∃ σ, Solution md p σ ∧ ∀ t ≤ p.tf, ∀ r ∈ p.regions, σ.R .relative_abatement t r = 0 ∧
      σ.R .area_under_MAC t r = 0 ∧
      (0 < t → σ.R .regional_emissions t r = p.baseline_carbon_intensity t r * σ.R .GDP_net t r) := by
  obtain ⟨σ, hσ, ha⟩ := C49_path_feasible_carbon_intensity hadm hd hg hU hl huse htr
    (heff.imp_right fun h => ⟨h, fun _ _ _ _ => rfl⟩)
  refine ⟨σ, hσ, fun t ht r hr => ⟨ha t r, ?_, fun h0 => ?_⟩⟩
  · rw [(hσ.eqs.mitigation.area t ht r hr).2]
    simp only [acVal]
    rw [ha, Real.zero_rpow (by linarith [hadm.beta_pos])]
    simp
  · rw [C23_abated_baseline hσ ht h0 hr, ha, (C23_baseline hσ ht hr).2 huse, Params.baseline_carbon_intensity]; ring

/-- Without a policy target, and with either kind of baseline, no abatement at all is a solution. -/
theorem C49_no_policy_feasible (hadm : p.Admissible) (hd : OrdinaryData md p) (htr : md.trade ≠ .globalcostpool)
    (heff : p.effort_sharing_regime = "noregime" ∨ p.effort_sharing_regime = "equal_mitigation_costs")
    (hexo : p.use_carbon_intensity_for_baseline = false → BaselineWithinLimits p ∧
      (md.transfer = .globaldamagepool → md.damage = .COACCH →
        ∀ t ≤ p.tf, ∀ r ∈ p.regions, 0 ≤ pathDamage p (fun _ _ => 0) t r))
    (hendo : p.use_carbon_intensity_for_baseline = true → ∃ g Kf, 0 ≤ g ∧ FavourableGrowth p g Kf ∧
      PathWithinLimitsCI p (fun _ _ => 0) g Kf md) :
    ∃ σ, Solution md p σ ∧ ∀ t ≤ p.tf, ∀ r ∈ p.regions, σ.R .relative_abatement t r = 0 ∧
      σ.R .area_under_MAC t r = 0 ∧ (0 < t → σ.R .regional_emissions t r = σ.R .baseline t r) := by
  cases hu : p.use_carbon_intensity_for_baseline with
  | false =>
    obtain ⟨h1, h2⟩ := hexo hu
    obtain ⟨σ, hσ, h⟩ := C49_no_policy_feasible_exogenous hadm hd h1 hu htr h2 heff
    refine ⟨σ, hσ, fun t ht r hr => ⟨(h t ht r hr).1, (h t ht r hr).2.2, fun _ => ?_⟩⟩
    rw [(h t ht r hr).2.1, (C23_baseline hσ ht hr).1 hu]
  | true =>
    obtain ⟨g, Kf, hg, hU, hl⟩ := hendo hu
    obtain ⟨σ, hσ, h⟩ := C49_no_policy_feasible_carbon_intensity hadm hd hg hU hl hu htr heff
    refine ⟨σ, hσ, fun t ht r hr => ⟨(h t ht r hr).1, (h t ht r hr).2.1, fun h0 => ?_⟩⟩
    rw [(h t ht r hr).2.2 h0, (C23_baseline hσ ht hr).2 hu, Params.baseline_carbon_intensity]
end Mimosa
