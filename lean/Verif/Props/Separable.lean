import Verif.Props.Initial
import Verif.Props.Compare
import Verif.Props.Witness

/-!
# C74: a region meets the other regions only through the climate

Without emission trading and transfers, what happens in one region depends on the rest of the world only through the
path of cumulative emissions (and, if technology is learned by doing, the global baseline emissions that learning is
measured against).  The two runs compared here may have different region lists, different data for all other regions,
different targets and policies, different welfare and objective modules.
-/

namespace Mimosa
variable {md md' : Modules} {p p' : Params} {σ τ : Env}

/-- The two settings describe the same climate, technology and economy for region `r`: same time grid, same climate,
damage and technology settings, same data of region `r`.  Nothing is said about other regions, about targets, budgets and
other limits, about effort sharing, or about welfare. -/
structure Spec.SameForRegion (p p' : Params) (r : String) : Prop where
  tf : p'.tf = p.tf
  dt : p'.dt = p.dt
  population : ∀ t, p'.population t r = p.population t r
  gdp : ∀ t, p'.baseline_GDP t r = p.baseline_GDP t r
  emissions : ∀ t, p'.baseline_emissions t r = p.baseline_emissions t r
  carbon_intensity : p'.use_carbon_intensity_for_baseline = p.use_carbon_intensity_for_baseline
  T0 : p'.T0 = p.T0
  TCRE : p'.TCRE = p.TCRE
  damage_scale : p'.damage_scale_factor = p.damage_scale_factor
  noslr_form : p'.noslr.form r = p.noslr.form r
  noslr_a : p'.noslr.a r = p.noslr.a r
  noslr_b1 : p'.noslr.b1 r = p.noslr.b1 r
  noslr_b2 : p'.noslr.b2 r = p.noslr.b2 r
  noslr_b3 : p'.noslr.b3 r = p.noslr.b3 r
  slr_form : p'.slr.form r = p.slr.form r
  slr_a : p'.slr.a r = p.slr.a r
  slr_b1 : p'.slr.b1 r = p.slr.b1 r
  slr_b2 : p'.slr.b2 r = p.slr.b2 r
  slr_b3 : p'.slr.b3 r = p.slr.b3 r
  gamma : p'.MAC_gamma = p.MAC_gamma
  beta : p'.MAC_beta = p.MAC_beta
  scaling : p'.MAC_scaling_factor r = p.MAC_scaling_factor r
  lbd_rate : p'.LBD_rate = p.LBD_rate
  lbd_scaling : p'.LBD_scaling = p.LBD_scaling
  lot_rate : p'.LOT_rate = p.LOT_rate
  capital : p'.init_capitalstock_factor r = p.init_capitalstock_factor r
  alpha : p'.alpha = p.alpha
  dk : p'.dk = p.dk
  sr : p'.sr = p.sr
  ignore : p'.ignore_damages = p.ignore_damages

/-- The rest of the world looks the same: same path of cumulative emissions, and (unless there is no learning by doing)
the same cumulative baseline emissions of the world. -/
structure Spec.SameWorld (p p' : Params) (σ τ : Env) : Prop where
  cumulative : ∀ t ≤ p.tf, τ.G .cumulative_emissions t = σ.G .cumulative_emissions t
  learning : p.LBD_rate = 1 ∨ ∀ t ≤ p.tf,
    p'.cumulative_global_baseline_emissions t = p.cumulative_global_baseline_emissions t

theorem formVal_congr {d d' : DamageCoeffs} {r : String} (hf : d'.form r = d.form r) (ha : d'.a r = d.a r)
    (h1 : d'.b1 r = d.b1 r) (h2 : d'.b2 r = d.b2 r) (h3 : d'.b3 r = d.b3 r) (x : ℝ) :
    formVal x d' r = formVal x d r := by
  simp only [formVal, hf, ha, h1, h2, h3]

section
variable {r : String} (h : Solution md p σ) (h' : Solution md' p' τ) (hs : Spec.SameForRegion p p' r)
  (hw : Spec.SameWorld p p' σ τ) (hr : r ∈ p.regions) (hr' : r ∈ p'.regions)
include h h' hs hw

/-- Same temperature, sea level and state of technology. -/
theorem C74_climate {t : ℕ} (ht : t ≤ p.tf) :
    τ.G .temperature t = σ.G .temperature t ∧ τ.G .total_SLR t = σ.G .total_SLR t ∧
    τ.G .learning_factor t = σ.G .learning_factor t := by
  have e := h.eqs
  have e' := h'.eqs
  have hT : ∀ t ≤ p.tf, τ.G .temperature t = σ.G .temperature t := fun t ht => by
    rw [e.emissions.temperature t ht, e'.emissions.temperature t (hs.tf ▸ ht), hw.cumulative t ht, hs.T0, hs.TCRE]
  have hsea : ∀ t ≤ p.tf, τ.G .slr_thermal t = σ.G .slr_thermal t ∧
      τ.G .slr_cumgsic t = σ.G .slr_cumgsic t ∧ τ.G .slr_cumgis t = σ.G .slr_cumgis t := by
    intro t
    induction t with
    | zero =>
      intro _
      refine ⟨?_, e'.slr.gsic_init.trans e.slr.gsic_init.symm, e'.slr.gis_init.trans e.slr.gis_init.symm⟩
      rw [e'.slr.thermal_init, e.slr.thermal_init, hs.T0]
    | succ t ih =>
      intro ht
      have ht' : t < p'.tf := hs.tf ▸ ht
      obtain ⟨i1, i2, i3⟩ := ih (by omega)
      rw [e.slr.thermal t ht, e'.slr.thermal t ht', e.slr.gsic t ht, e'.slr.gsic t ht', e.slr.gis t ht,
        e'.slr.gis t ht', i1, i2, i3, hT t (by omega), hs.dt]
      exact ⟨rfl, rfl, rfl⟩
  obtain ⟨s1, s2, s3⟩ := hsea t ht
  have ht' : t ≤ p'.tf := hs.tf ▸ ht
  refine ⟨hT t ht, ?_, ?_⟩
  · rw [e.slr.total t ht, e'.slr.total t ht', s1, s2, s3]
  · have m := e.mitigation
    have m' := e'.mitigation
    rw [m.learning t ht, m'.learning t ht', (m.lot t ht).2.2, (m'.lot t ht').2.2, hs.lot_rate,
      (m.lbd t ht).2, (m'.lbd t ht').2]
    rcases hw.learning with h1 | h1
    · have h1' : p'.LBD_rate = 1 := hs.lbd_rate.trans h1
      simp [Params.log_LBD_rate, h1, h1']
    · rw [h1 t ht, hw.cumulative t ht, hs.lbd_scaling, show p'.log_LBD_rate = p.log_LBD_rate by
        simp [Params.log_LBD_rate, hs.lbd_rate]]

include hr hr'

/-- Same damages. -/
theorem C74_damages (hd : md'.damage = md.damage) {t : ℕ} (ht : t ≤ p.tf) :
    τ.R .damage_costs t r = σ.R .damage_costs t r := by
  have d := h.eqs.damages
  have d' := h'.eqs.damages
  have ht' : t ≤ p'.tf := hs.tf ▸ ht
  obtain ⟨hT, hS, _⟩ := C74_climate h h' hs hw ht
  obtain ⟨_, hS0, _⟩ := C74_climate h h' hs hw (Nat.zero_le p.tf)
  rw [hd] at d'
  cases hm : md.damage with
  | nodamage =>
    rw [hm] at d d'
    rw [d t ht r hr, d' t ht' r hr']
  | COACCH =>
    rw [hm] at d d'
    have f1 := formVal_congr hs.noslr_form hs.noslr_a hs.noslr_b1 hs.noslr_b2 hs.noslr_b3
    have f2 := formVal_congr hs.slr_form hs.slr_a hs.slr_b1 hs.slr_b2 hs.slr_b3
    rw [d.total t ht r hr, d'.total t ht' r hr', (d.noslr t ht r hr).2.2, (d'.noslr t ht' r hr').2.2,
      (d.slr t ht r hr).2.2, (d'.slr t ht' r hr').2.2, hT, hS, hS0, hs.T0, hs.damage_scale, f1, f1, f2, f2]

/-- With the same abatement in the region: same emissions, carbon price and abatement costs. -/
theorem C74_costs (ha : ∀ t ≤ p.tf, τ.R .relative_abatement t r = σ.R .relative_abatement t r)
    (hex : p.use_carbon_intensity_for_baseline = false) (htr : md.trade = .notrade) (htr' : md'.trade = .notrade)
    {t : ℕ} (ht : t ≤ p.tf) :
    τ.R .baseline t r = σ.R .baseline t r ∧ τ.R .regional_emissions t r = σ.R .regional_emissions t r ∧
    τ.R .carbonprice t r = σ.R .carbonprice t r ∧ τ.R .mitigation_costs t r = σ.R .mitigation_costs t r := by
  have e := h.eqs
  have e' := h'.eqs
  have ht' : t ≤ p'.tf := hs.tf ▸ ht
  have hex' : p'.use_carbon_intensity_for_baseline = false := hs.carbon_intensity.trans hex
  obtain ⟨_, _, hl⟩ := C74_climate h h' hs hw ht
  have hb : τ.R .baseline t r = σ.R .baseline t r := by
    rw [(C23_baseline h ht hr).1 hex, (C23_baseline h' ht' hr').1 hex', hs.emissions]
  have hA := ha t ht
  refine ⟨hb, ?_, ?_, ?_⟩
  · rcases Nat.eq_zero_or_pos t with rfl | h0
    · rw [(C32_emissions h).1 r hr, (C32_emissions h').1 r hr', hs.emissions]
    · rw [C23_abated_baseline h ht h0 hr, C23_abated_baseline h' ht' h0 hr', hA, hb]
  · rw [(e.mitigation.carbonprice t ht r hr).2, (e'.mitigation.carbonprice t ht' r hr').2]
    simp only [macVal]; rw [hl, hA, hs.gamma, hs.beta, hs.scaling]
  · rw [(e.mitigation.mitigation_costs t ht r hr).2, (e'.mitigation.mitigation_costs t ht' r hr').2, hb, htr, htr']
    simp only [acVal, costBalanceVal]; rw [hl, hA, hs.gamma, hs.beta, hs.scaling]

/-- … and the same capital, GDP, investments and consumption: nothing that happens elsewhere changes them. -/
theorem C74_economy (hd : md'.damage = md.damage)
    (ha : ∀ t ≤ p.tf, τ.R .relative_abatement t r = σ.R .relative_abatement t r)
    (hex : p.use_carbon_intensity_for_baseline = false) (htr : md.trade = .notrade) (htr' : md'.trade = .notrade)
    (hf : md.transfer = .notransfer) (hf' : md'.transfer = .notransfer) (hdata : Spec.EconData p)
    (h0 : 0 ≤ p.alpha) (h1 : p.alpha ≤ 1)
    (hK : ∀ t < p.tf, p.dt * (p.sr * σ.R .mitigation_costs (t + 1) r) < σ.R .capital_stock t r)
    {t : ℕ} (ht : t ≤ p.tf) :
    τ.R .capital_stock t r = σ.R .capital_stock t r ∧ τ.R .GDP_gross t r = σ.R .GDP_gross t r ∧
    τ.R .GDP_net t r = σ.R .GDP_net t r ∧ τ.R .investments t r = σ.R .investments t r ∧
    τ.R .consumption t r = σ.R .consumption t r := by
  have e := h.eqs.economy
  have e' := h'.eqs.economy
  have hTFP : ∀ t, get_TFP_value p' t r = get_TFP_value p t r :=
    TFP_congr hs.capital hs.gdp hs.sr hs.dk hs.dt hs.population hs.alpha
  have hcap : ∀ t ≤ p.tf, τ.R .capital_stock t r = σ.R .capital_stock t r := by
    intro t
    induction t with
    | zero => intro _; rw [e'.capital_init r hr', e.capital_init r hr, hs.capital, hs.gdp]
    | succ t ih =>
      intro ht
      have ht' : t + 1 ≤ p'.tf := hs.tf ▸ ht
      have ih := ih (by omega)
      have hc := (C74_costs h h' hs hw hr hr' ha hex htr htr' ht).2.2.2
      have hD := C74_damages h h' hs hw hr hr' hd ht
      have hdt := hdata.dt_pos.ne'
      set D := (if p.ignore_damages then 0 else σ.R .damage_costs (t + 1) r) with hDdef
      have key : ∀ K X : ℝ, K = σ.R .capital_stock t r + p.dt * (((1 - p.dk) ^ p.dt - 1) / p.dt * K +
            p.sr * (get_TFP_value p (t + 1) r * p.population (t + 1) r ^ (1 - p.alpha) * X * (1 - D) -
              σ.R .mitigation_costs (t + 1) r - 0)) →
          (2 - (1 - p.dk) ^ p.dt) * K =
            (σ.R .capital_stock t r - p.dt * (p.sr * σ.R .mitigation_costs (t + 1) r)) +
            (p.dt * p.sr * (get_TFP_value p (t + 1) r * p.population (t + 1) r ^ (1 - p.alpha)) * (1 - D)) * X := by
        intro K X a1
        field_simp at a1
        linarith
      refine capital_unique ?_ ?_ h0 h1 (key (τ.R .capital_stock (t + 1) r) _ ?_)
        (key (σ.R .capital_stock (t + 1) r) _ ?_)
      · linarith [(decay_range hdata).2]
      · linarith [hK t ht]
      · have a1 := (e'.capital t ht' r hr').2.2
        rw [e'.investments (t + 1) ht' r hr', e'.net (t + 1) ht' r hr', (e'.gross t ht' r hr').2, ih, hc, hD, hf',
          hs.dt, hs.dk, hs.sr, hs.alpha, hs.population, hs.ignore, hTFP] at a1
        simp only [transferVal] at a1
        exact a1
      · have a1 := (e.capital t ht r hr).2.2
        rw [e.investments (t + 1) ht r hr, e.net (t + 1) ht r hr, (e.gross t ht r hr).2, hf] at a1
        simp only [transferVal] at a1
        exact a1
  have ht' : t ≤ p'.tf := hs.tf ▸ ht
  have hg : τ.R .GDP_gross t r = σ.R .GDP_gross t r := by
    cases t with
    | zero => rw [e'.gross_init r hr', e.gross_init r hr, hs.gdp]
    | succ t => rw [(e.gross t ht r hr).2, (e'.gross t ht' r hr').2, hcap (t + 1) ht, hTFP, hs.population, hs.alpha]
  have hn : τ.R .GDP_net t r = σ.R .GDP_net t r := by
    rw [e.net t ht r hr, e'.net t ht' r hr', hg, C74_damages h h' hs hw hr hr' hd ht,
      (C74_costs h h' hs hw hr hr' ha hex htr htr' ht).2.2.2, hf, hf', hs.ignore]
    rfl
  refine ⟨hcap t ht, hg, hn, ?_, ?_⟩
  · rw [e.investments t ht r hr, e'.investments t ht' r hr', hn, hs.sr]
  · rw [e.consumption t ht r hr, e'.consumption t ht' r hr', hn, hs.sr]
end

/-! ### Region B doubles in size; nothing changes in region A -/

namespace Ex
/-- `free` with another region B: larger population and GDP, more capital. -/
noncomputable def freeB : Params := { free with
    population := fun t r => if r = "B" then 3 * free.population t r else free.population t r
    baseline_GDP := fun t r => if r = "B" then 2 * free.baseline_GDP t r else free.baseline_GDP t r
    init_capitalstock_factor := fun r => if r = "B" then 5 else free.init_capitalstock_factor r }

theorem freeB_same : Spec.SameForRegion free freeB "A" where
  tf := rfl
  dt := rfl
  population := fun _ => rfl
  gdp := fun _ => rfl
  emissions := fun _ => rfl
  carbon_intensity := rfl
  T0 := rfl
  TCRE := rfl
  damage_scale := rfl
  noslr_form := rfl
  noslr_a := rfl
  noslr_b1 := rfl
  noslr_b2 := rfl
  noslr_b3 := rfl
  slr_form := rfl
  slr_a := rfl
  slr_b1 := rfl
  slr_b2 := rfl
  slr_b3 := rfl
  gamma := rfl
  beta := rfl
  scaling := rfl
  lbd_rate := rfl
  lbd_scaling := rfl
  lot_rate := rfl
  capital := rfl
  alpha := rfl
  dk := rfl
  sr := rfl
  ignore := rfl

theorem freeB_temp (a : ℕ → String → ℝ) (t : ℕ) :
    Spec.pathTemperature freeB a t = Spec.pathTemperature free a t := by
  have h : Spec.pathCumulative freeB a t = Spec.pathCumulative free a t := by
    induction t with
    | zero => rfl
    | succ t ih =>
      have e : Spec.pathCumulative freeB a (t + 1) = Spec.pathCumulative freeB a t +
        40 * (Spec.pathWorld free a (t + 1) + Spec.pathWorld free a t) / 2 := rfl
      rw [e, ih]; rfl
  show 1 + 0.0006 * Spec.pathCumulative freeB a t = 1 + 0.0006 * Spec.pathCumulative free a t
  rw [h]

theorem freeB_sea (a : ℕ → String → ℝ) (t : ℕ) : Spec.pathSea freeB a t = Spec.pathSea free a t := by
  induction t with
  | zero => rfl
  | succ t ih =>
    simp only [Spec.pathSea, ih, freeB_temp]
    rfl

/-- With region B changed, every mild abatement path is still feasible. -/
theorem freeB_sol (w : WelfareModule) (o : ObjectiveModule) {a : ℕ → String → ℝ} (ha : Mild a) :
    ∃ σ, Solution (md0 .nodamage w o) freeB σ ∧ ∀ t r, σ.R .relative_abatement t r = a t r :=
  have h := mild_limits ha
  C49_path_feasible_exogenous
    { free_admissible with
      pop_pos := fun t ht r hr => by
        have := free_admissible.pop_pos t ht r hr
        show 0 < if r = "B" then 3 * free.population t r else free.population t r
        split <;> linarith
      gdp_pos := fun t ht r hr => by
        have := free_admissible.gdp_pos t ht r hr
        show 0 < if r = "B" then 2 * free.baseline_GDP t r else free.baseline_GDP t r
        split <;> linarith
      capital_pos := fun r hr => by
        have := free_admissible.capital_pos r hr
        show 0 < if r = "B" then (5 : ℝ) else free.init_capitalstock_factor r
        split <;> linarith
      cum_ne := free_admissible.cum_ne } { free_ordinary with }
    { h with
      target := fun T hT => by cases hT
      budget := fun b hb => by cases hb
      melt := fun t ht => by rw [freeB_temp]; exact h.melt t ht
      sea_damages := fun t ht r hr => by
        have e : ∀ t, Spec.pathSeaLevel freeB a t = Spec.pathSeaLevel free a t := fun t => by
          simp only [Spec.pathSeaLevel, freeB_sea]
        rw [e, e]; exact h.sea_damages t ht r hr } rfl (by simp [md0]) (fun h => by cases h) (Or.inl rfl)

/-- Two solutions with the same abatement have the same cumulative emissions, so the hypotheses of C74 are met. -/
theorem freeB_world {w w' : WelfareModule} {o o' : ObjectiveModule} {σ τ : Env}
    (h : Solution (md0 .nodamage w o) free σ) (h' : Solution (md0 .nodamage w' o') freeB τ)
    (ha : ∀ t r, τ.R .relative_abatement t r = σ.R .relative_abatement t r) : Spec.SameWorld free freeB σ τ := by
  have e := h.eqs.emissions
  have e' := h'.eqs.emissions
  have hg : ∀ t ≤ free.tf, τ.G .global_emissions t = σ.G .global_emissions t := by
    intro t ht
    cases t with
    | zero => rw [e'.global_emissions_init, e.global_emissions_init]; rfl
    | succ t =>
      rw [e'.global_emissions t ht, e.global_emissions t ht]
      refine sumR_congr (p := free) fun r hr => ?_
      rw [e'.regional_emissions t ht r hr, e.regional_emissions t ht r hr, ha]
      rfl
  refine ⟨fun t => ?_, .inr fun t _ => rfl⟩
  induction t with
  | zero => intro _; rw [e'.cumulative_init, e.cumulative_init]
  | succ t ih =>
    intro ht
    rw [e'.cumulative t ht, e.cumulative t ht, ih (by omega), hg t (by omega), hg (t + 1) ht]
    rfl

/-- Abatement costs are small against the capital stock. -/
theorem free_capital {w : WelfareModule} {o : ObjectiveModule} {r : String} (hr : r ∈ free.regions) {t : ℕ} (ht : t ≤ 3) :
    (σHalf w o).R .mitigation_costs t r ≤ 1 / 2 ∧ 10 ≤ (σHalf w o).R .capital_stock t r := by
  have h : Solution (md0 .nodamage w o) free (σHalf w o) := free_sol .nodamage w o mild_half
  have hx : ∀ t r, (σHalf w o).R .relative_abatement t r = half t r := fun _ _ => rfl
  have hcum : ∀ t ≤ 3, (σHalf w o).G .cumulative_emissions t ≤ 1600 * t := by
    intro t ht
    show (Path.x half).cum free t ≤ _
    rw [Path.cum_eq]; exact (mild_cum mild_half t).2
  generalize σHalf w o = σ at *
  have hc : ∀ t ≤ 3, σ.R .mitigation_costs t r ≤ 1 / 2 := by
    intro t ht
    have hl := (C31_at_most_one h (by norm_num [free, ex]) (by norm_num [free, ex]) (by norm_num [free, ex])
      (t := t) ht ((hcum t ht).trans_eq (baseline_cum (regime := "noregime") (al := 0) (conv := none) t ht).symm)).2
    have hl0 := (C31_positive h (by norm_num [free, ex]) (t := t) ht).2.2
    rw [(h.eqs.mitigation.mitigation_costs t ht r hr).2, h.eqs.emissions.baseline t ht r hr]
    show σ.G .learning_factor t * 1 * (1 / 10) * σ.R .relative_abatement t r ^ ((3 : ℝ) + 1) / (3 + 1) * 20 + 0 ≤ _
    have h0 : 0 ≤ σ.R .relative_abatement t r ∧ σ.R .relative_abatement t r ≤ 1 := by
      rw [hx]; unfold half; split <;> norm_num
    have h1 := Real.rpow_le_one h0.1 h0.2 (z := (3 : ℝ) + 1) (by norm_num)
    have h2 := Real.rpow_nonneg h0.1 ((3 : ℝ) + 1)
    have h3 : σ.G .learning_factor t * σ.R .relative_abatement t r ^ ((3 : ℝ) + 1) ≤ 1 := mul_le_one₀ hl h2 h1
    generalize σ.R .relative_abatement t r ^ ((3 : ℝ) + 1) = X at *
    linarith
  refine ⟨hc t ht, ?_⟩
  induction t with
  | zero => rw [C37_initial h hr]; norm_num [free, ex]
  | succ t ih =>
    have ih := ih (by omega)
    have hi : σ.R .investments (t + 1) r = 1 / 5 * (10 - σ.R .mitigation_costs (t + 1) r) := by
      have h1 := h.eqs.economy.investments (t + 1) ht r hr
      have h2 := (free_cons h ht hr).1
      have h3 := h.eqs.economy.consumption (t + 1) ht r hr
      have e1 : free.sr = 1 / 5 := rfl
      rw [e1] at h1 h3
      linarith
    have hd := decay_range free_admissible.econData
    rw [C37_explicit h free_admissible.econData ht hr, le_div_iff₀ (by linarith [hd.2]), hi]
    have e2 : free.dt = 40 := rfl
    have := hc (t + 1) ht
    rw [e2] at hd ⊢
    linarith [hd.1]
end Ex

section
open Ex
variable {w' : WelfareModule} {o' : ObjectiveModule}

example : ∃ τ, Solution (md0 .nodamage w' o') freeB τ ∧ ∀ t ≤ 3,
    τ.R .consumption t "A" = (σHalf .cost_minimising .utility).R .consumption t "A" ∧
    τ.R .carbonprice t "A" = (σHalf .cost_minimising .utility).R .carbonprice t "A" ∧
    τ.R .damage_costs t "A" = (σHalf .cost_minimising .utility).R .damage_costs t "A" ∧
    τ.G .temperature t = (σHalf .cost_minimising .utility).G .temperature t := by
  obtain ⟨τ, h', ha'⟩ := freeB_sol w' o' mild_half
  have h := free_sol .nodamage .cost_minimising .utility mild_half
  have ha : ∀ t r, (σHalf .cost_minimising .utility).R .relative_abatement t r = half t r := fun _ _ => rfl
  have hw := freeB_world h h' fun t r => (ha' t r).trans (ha t r).symm
  have hA : "A" ∈ free.regions := by simp [free, ex]
  refine ⟨τ, h', fun t ht => ⟨?_, ?_, ?_, ?_⟩⟩
  · exact (C74_economy h h' freeB_same hw hA hA rfl (fun t _ => (ha' t _).trans (ha t _).symm) rfl rfl rfl rfl rfl
      free_admissible.econData le_rfl zero_le_one (fun t ht => by
        have h1 := (free_capital (w := .cost_minimising) (o := .utility) hA (t := t + 1) ht).1
        have h2 := (free_capital (w := .cost_minimising) (o := .utility) hA (t := t) (le_of_lt ht)).2
        show (40 : ℝ) * (1 / 5 * _) < _
        linarith) ht).2.2.2.2
  · exact (C74_costs h h' freeB_same hw hA hA (fun t _ => (ha' t _).trans (ha t _).symm) rfl rfl rfl ht).2.2.1
  · exact C74_damages h h' freeB_same hw hA hA rfl ht
  · exact (C74_climate h h' freeB_same hw ht).1
end

end Mimosa
