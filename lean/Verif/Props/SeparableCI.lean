import Verif.Props.Separable
import Verif.Props.Determined

/-!
# C74 with endogenous baseline emissions

With the carbon-intensity baseline (the default) a region's emissions depend on its GDP, which depends on damages and
abatement costs.  Still the rest of the world enters only through the climate (and learning).
-/

namespace Mimosa
variable {md md' : Modules} {p p' : Params} {σ τ : Env}

/-- Region `r` has ordinary technology: non-negative costs of abatement and baseline emissions. -/
structure Spec.OrdinaryRegion (p : Params) (r : String) : Prop where
  gamma_nonneg : 0 ≤ p.MAC_gamma
  beta_pos : 0 < p.MAC_beta
  scaling_nonneg : 0 ≤ p.MAC_scaling_factor r
  baseline_nonneg : ∀ t ≤ p.tf, 0 ≤ p.baseline_emissions t r
  lot : 0 < 1 + p.LOT_rate

section
variable {r : String} (h : Solution md p σ) (h' : Solution md' p' τ) (hs : Spec.SameForRegion p p' r)
  (hw : Spec.SameWorld p p' σ τ) (hr : r ∈ p.regions) (hr' : r ∈ p'.regions)
  (hd : md'.damage = md.damage) (ha : ∀ t ≤ p.tf, τ.R .relative_abatement t r = σ.R .relative_abatement t r)
  (huse : p.use_carbon_intensity_for_baseline = true) (htr : md.trade = .notrade) (htr' : md'.trade = .notrade)
  (hf : md.transfer = .notransfer) (hf' : md'.transfer = .notransfer) (hdata : Spec.EconData p)
  (hord : Spec.OrdinaryRegion p r) (h0 : 0 ≤ p.alpha) (h1 : p.alpha ≤ 1)
  (hK : ∀ t < p.tf, 0 < σ.R .capital_stock t r)
include h h' hs hw hr hr' hd ha huse htr htr' hf hf' hdata hord h0 h1 hK

/-- **C74** with the carbon-intensity baseline: with the same abatement in the region, the same capital, GDP, investments
and consumption … -/
theorem C74_economy_carbon_intensity {t : ℕ} (ht : t ≤ p.tf) :
    τ.R .capital_stock t r = σ.R .capital_stock t r ∧ τ.R .GDP_gross t r = σ.R .GDP_gross t r ∧
    τ.R .GDP_net t r = σ.R .GDP_net t r ∧ τ.R .investments t r = σ.R .investments t r ∧
    τ.R .consumption t r = σ.R .consumption t r := by
  have e := h.eqs.economy
  have e' := h'.eqs.economy
  have huse' : p'.use_carbon_intensity_for_baseline = true := hs.carbon_intensity.trans huse
  have hTFP : ∀ t, get_TFP_value p' t r = get_TFP_value p t r :=
    TFP_congr hs.capital hs.gdp hs.sr hs.dk hs.dt hs.population hs.alpha
  have hac : ∀ {t : ℕ}, t ≤ p.tf → acVal p' τ t r = acVal p σ t r := fun {t} ht => by
    simp only [acVal]
    rw [(C74_climate h h' hs hw ht).2.2, ha t ht, hs.gamma, hs.beta, hs.scaling]
  have hci : ∀ t, Determined.ci p' t r = Determined.ci p t r := fun t => by
    simp only [Determined.ci, Params.baseline_carbon_intensity]; rw [hs.emissions, hs.gdp]
  have hD : ∀ {t : ℕ}, t ≤ p.tf → Determined.D p' τ t r = Determined.D p σ t r := fun {t} ht => by
    unfold Determined.D
    rw [hs.ignore, C74_damages h h' hs hw hr hr' hd ht]
  have hpos : ∀ {t : ℕ}, t ≤ p.tf → 0 < 1 + acVal p σ t r * Determined.ci p t r := fun {t} ht => by
    have hl := (C31_positive h (by linarith [hord.lot]) ht).2.2
    have hA := Real.rpow_nonneg (h.abatement_bounds ht hr).1 (p.MAC_beta + 1)
    have q1 := hord.gamma_nonneg
    have q2 := hord.beta_pos
    have q3 := hord.scaling_nonneg
    have q4 : 0 ≤ acVal p σ t r := by unfold acVal; positivity
    have q5 : 0 ≤ Determined.ci p t r := div_nonneg (hord.baseline_nonneg t ht) (hdata.gdp_pos t ht r hr).le
    positivity
  have hn : ∀ {t : ℕ}, t ≤ p.tf → σ.R .GDP_net t r =
      σ.R .GDP_gross t r * ((1 - Determined.D p σ t r) / (1 + acVal p σ t r * Determined.ci p t r)) := fun {t} ht => by
    rw [← mul_div_assoc, eq_div_iff (hpos ht).ne', Determined.net_eq huse htr hf h ht hr]
  have hn' : ∀ {t : ℕ}, t ≤ p.tf → τ.R .GDP_net t r =
      τ.R .GDP_gross t r * ((1 - Determined.D p σ t r) / (1 + acVal p σ t r * Determined.ci p t r)) := fun {t} ht => by
    have q := Determined.net_eq huse' htr' hf' h' (hs.tf ▸ ht : t ≤ p'.tf) hr'
    rw [hac ht, hci, hD ht] at q
    rw [← mul_div_assoc, eq_div_iff (hpos ht).ne', q]
  have hcap : ∀ t ≤ p.tf, τ.R .capital_stock t r = σ.R .capital_stock t r := by
    intro t
    induction t with
    | zero => intro _; rw [e'.capital_init r hr', e.capital_init r hr, hs.capital, hs.gdp]
    | succ t ih =>
      intro ht
      have ht' : t + 1 ≤ p'.tf := hs.tf ▸ ht
      have ih := ih (by omega)
      have hdt := hdata.dt_pos.ne'
      set m := (1 - Determined.D p σ (t + 1) r) / (1 + acVal p σ (t + 1) r * Determined.ci p (t + 1) r) with hm
      have key : ∀ K X : ℝ, K = σ.R .capital_stock t r + p.dt * (((1 - p.dk) ^ p.dt - 1) / p.dt * K +
            p.sr * (get_TFP_value p (t + 1) r * p.population (t + 1) r ^ (1 - p.alpha) * X * m)) →
          (2 - (1 - p.dk) ^ p.dt) * K = σ.R .capital_stock t r +
            (p.dt * p.sr * (get_TFP_value p (t + 1) r * p.population (t + 1) r ^ (1 - p.alpha)) * m) * X := by
        intro K X a1
        field_simp at a1
        linarith
      refine capital_unique ?_ (hK t ht) h0 h1 (key (τ.R .capital_stock (t + 1) r) _ ?_)
        (key (σ.R .capital_stock (t + 1) r) _ ?_)
      · linarith [(decay_range hdata).2]
      · have a1 := (e'.capital t ht' r hr').2.2
        rw [e'.investments (t + 1) ht' r hr', hn' ht, (e'.gross t ht' r hr').2, ih,
          hs.dt, hs.dk, hs.sr, hs.alpha, hs.population, hTFP] at a1
        exact a1
      · have a1 := (e.capital t ht r hr).2.2
        rw [e.investments (t + 1) ht r hr, hn ht, (e.gross t ht r hr).2] at a1
        exact a1
  have ht' : t ≤ p'.tf := hs.tf ▸ ht
  have hg : τ.R .GDP_gross t r = σ.R .GDP_gross t r := by
    cases t with
    | zero => rw [e'.gross_init r hr', e.gross_init r hr, hs.gdp]
    | succ t => rw [(e.gross t ht r hr).2, (e'.gross t ht' r hr').2, hcap (t + 1) ht, hTFP, hs.population, hs.alpha]
  have hnn : τ.R .GDP_net t r = σ.R .GDP_net t r := by rw [hn ht, hn' ht, hg]
  refine ⟨hcap t ht, hg, hnn, ?_, ?_⟩
  · rw [e.investments t ht r hr, e'.investments t ht' r hr', hnn, hs.sr]
  · rw [e.consumption t ht r hr, e'.consumption t ht' r hr', hnn, hs.sr]

/-- … and the same baseline, emissions, carbon price and abatement costs. -/
theorem C74_costs_carbon_intensity {t : ℕ} (ht : t ≤ p.tf) :
    τ.R .baseline t r = σ.R .baseline t r ∧ τ.R .regional_emissions t r = σ.R .regional_emissions t r ∧
    τ.R .carbonprice t r = σ.R .carbonprice t r ∧ τ.R .mitigation_costs t r = σ.R .mitigation_costs t r := by
  have e := h.eqs
  have e' := h'.eqs
  have ht' : t ≤ p'.tf := hs.tf ▸ ht
  have huse' : p'.use_carbon_intensity_for_baseline = true := hs.carbon_intensity.trans huse
  obtain ⟨_, _, hl⟩ := C74_climate h h' hs hw ht
  have hn := (C74_economy_carbon_intensity h h' hs hw hr hr' hd ha huse htr htr' hf hf' hdata hord h0 h1 hK ht).2.2.1
  have hb : τ.R .baseline t r = σ.R .baseline t r := by
    rw [(C23_baseline h ht hr).2 huse, (C23_baseline h' ht' hr').2 huse', hs.emissions, hs.gdp, hn]
  have hA := ha t ht
  refine ⟨hb, ?_, ?_, ?_⟩
  · rcases Nat.eq_zero_or_pos t with rfl | h0
    · rw [(C32_emissions h).1 r hr, (C32_emissions h').1 r hr', hs.emissions]
    · rw [C23_abated_baseline h ht h0 hr, C23_abated_baseline h' ht' h0 hr', hA, hb]
  · rw [(e.mitigation.carbonprice t ht r hr).2, (e'.mitigation.carbonprice t ht' r hr').2]
    simp only [macVal]; rw [hl, hA, hs.gamma, hs.beta, hs.scaling]
  · rw [(e.mitigation.mitigation_costs t ht r hr).2, (e'.mitigation.mitigation_costs t ht' r hr').2, hb, htr, htr']
    simp only [acVal, costBalanceVal]; rw [hl, hA, hs.gamma, hs.beta, hs.scaling]
end

/-! ### Region B changes; nothing changes in region A -/

namespace Ex
open Spec

/-- `freeCI` without learning by doing, with another population (factor `k`) and capital in region B. -/
noncomputable def ciVar (k : ℝ) : Params := { freeCI with
    LBD_rate := 1
    population := fun t r => if r = "B" then k * freeCI.population t r else freeCI.population t r
    init_capitalstock_factor := fun r => if r = "B" then k * freeCI.init_capitalstock_factor r else
      freeCI.init_capitalstock_factor r }

variable {k : ℝ} {Kf : ℕ → String → ℝ}

theorem ciVar_pop (hk : 0 < k) (t : ℕ) (r : String) : 0 < (ciVar k).population t r := by
  show 0 < if r = "B" then k * 1 else (1 : ℝ)
  split <;> linarith

theorem ciVar_admissible (hk : 0 < k) : (ciVar k).Admissible := { freeCI_admissible with
  pop_pos := fun t _ r _ => ciVar_pop hk t r
  capital_pos := fun r hr => by
    have := freeCI_admissible.capital_pos r hr
    show 0 < if r = "B" then k * freeCI.init_capitalstock_factor r else freeCI.init_capitalstock_factor r
    split <;> positivity
  lbd_pos := one_pos }

theorem ciVar_ordinary {md : Modules} : Spec.OrdinaryData md (ciVar k) := { freeCI_ordinary (md := md) with
  lbd_le := le_rfl }

theorem ciVar_gdp (hk : 0 < k) (t : ℕ) (r : String) (K : ℝ) : gdpOf (ciVar k) t r K = 10 := by
  have hp := (ciVar_pop hk t r).ne'
  unfold gdpOf
  split
  · rfl
  · have ha : (ciVar k).alpha = 0 := rfl
    have hg : (ciVar k).baseline_GDP t r = 10 := rfl
    simp only [get_TFP_value, calc_GDP_real, ha, hg, sub_zero, Real.rpow_one, Real.rpow_zero, mul_one, one_mul]
    field_simp
theorem ciVar_em (hk : 0 < k) (t : ℕ) (r : String) :
    favourableEmissions (ciVar k) half (1 / 10) Kf t r = favourableEmissions freeCI half (1 / 10) Kf t r := by
  unfold favourableEmissions
  rw [ciVar_gdp hk, freeCI_gdp]
  rfl

theorem ciVar_world (hk : 0 < k) (t : ℕ) :
    favourableWorld (ciVar k) half (1 / 10) Kf t = favourableWorld freeCI half (1 / 10) Kf t := by
  unfold favourableWorld
  simp only [ciVar_em hk]
  rfl

theorem ciVar_cum (hk : 0 < k) (t : ℕ) :
    favourableCumulative (ciVar k) half (1 / 10) Kf t = favourableCumulative freeCI half (1 / 10) Kf t := by
  induction t with
  | zero => rfl
  | succ t ih =>
    have e : favourableCumulative (ciVar k) half (1 / 10) Kf (t + 1) = favourableCumulative (ciVar k) half (1 / 10) Kf t +
      40 * (favourableWorld (ciVar k) half (1 / 10) Kf (t + 1) + favourableWorld (ciVar k) half (1 / 10) Kf t) / 2 := rfl
    rw [e, ih, ciVar_world hk, ciVar_world hk]; rfl

theorem ciVar_temp (hk : 0 < k) (t : ℕ) :
    favourableTemperature (ciVar k) half (1 / 10) Kf t = favourableTemperature freeCI half (1 / 10) Kf t := by
  have e : favourableTemperature (ciVar k) half (1 / 10) Kf t =
    1 + 0.0006 * favourableCumulative (ciVar k) half (1 / 10) Kf t := rfl
  rw [e, ciVar_cum hk]; rfl

theorem ciVar_limits (hk : 0 < k) (w : WelfareModule) (o : ObjectiveModule) :
    PathWithinLimitsCI (ciVar k) half (1 / 10) Kf (md0 .nodamage w o) :=
  have l : PathWithinLimitsCI freeCI half (1 / 10) Kf (md0 .nodamage w o) := limitsCI _ rfl
  { l with
    target := fun T hT => by cases hT
    budget := fun b hb => by cases hb
    inertia_global := fun i hi t ht => by rw [ciVar_world hk]; exact l.inertia_global i hi t ht
    inertia_regional := fun i hi t ht r hr => by rw [ciVar_em hk]; exact l.inertia_regional i hi t ht r hr
    non_increasing := fun hz t ht hy r hr => by rw [ciVar_em hk]; exact l.non_increasing hz t ht hy r hr
    price := fun t ht r hr => by rw [ciVar_cum hk]; exact l.price t ht r hr
    melt := fun t ht => by rw [ciVar_temp hk]; exact l.melt t ht
    damages := fun hd => by cases hd
    pool := fun hp => by cases hp }

theorem ciVar_sol (hk : 0 < k) (w : WelfareModule) (o : ObjectiveModule) :
    ∃ σ, Solution (md0 .nodamage w o) (ciVar k) σ ∧ ∀ t r, σ.R .relative_abatement t r = half t r := by
  obtain ⟨Kf, hU⟩ := favourable_exists (g := 1 / 10) (ciVar_admissible hk)
  exact C49_path_feasible_carbon_intensity (ciVar_admissible hk) ciVar_ordinary (by norm_num) hU
    (ciVar_limits hk w o) rfl (by simp [md0]) (Or.inl rfl)

theorem ciVar_region : Spec.OrdinaryRegion (ciVar k) "A" where
  gamma_nonneg := (ciVar_ordinary (md := md0 .nodamage .welfare_loss_minimising .utility)).gamma_nonneg
  beta_pos := freeCI_admissible.beta_pos
  scaling_nonneg := (ciVar_ordinary (md := md0 .nodamage .welfare_loss_minimising .utility)).scaling_nonneg "A" (by simp [ciVar, freeCI, free, ex])
  baseline_nonneg := fun t ht => (ciVar_ordinary (md := md0 .nodamage .welfare_loss_minimising .utility)).baseline_nonneg t ht "A" (by simp [ciVar, freeCI, free, ex])
  lot := freeCI_admissible.lot

theorem ciVar_same : Spec.SameForRegion (ciVar 1) (ciVar k) "A" where
  tf := rfl
  dt := rfl
  population := fun _ => rfl
  gdp := fun _ => rfl
  emissions := fun _ => rfl
  carbon_intensity := rfl
  T0 := rfl
  TCRE := rfl
  damage_scale := rfl
  noslr_form := rfl
  noslr_a := rfl
  noslr_b1 := rfl
  noslr_b2 := rfl
  noslr_b3 := rfl
  slr_form := rfl
  slr_a := rfl
  slr_b1 := rfl
  slr_b2 := rfl
  slr_b3 := rfl
  gamma := rfl
  beta := rfl
  scaling := rfl
  lbd_rate := rfl
  lbd_scaling := rfl
  lot_rate := rfl
  capital := rfl
  alpha := rfl
  dk := rfl
  sr := rfl
  ignore := rfl

/-- In every solution GDP is 10, and net GDP follows from the abatement. -/
theorem ciVar_net {w : WelfareModule} {o : ObjectiveModule} {σ : Env} (hk : 0 < k)
    (h : Solution (md0 .nodamage w o) (ciVar k) σ) (ha : ∀ t r, σ.R .relative_abatement t r = half t r) {t : ℕ}
    (ht : t ≤ 3) {r : String} (hr : r ∈ (ciVar k).regions) :
    0 < σ.R .GDP_net t r ∧ σ.R .GDP_net t r =
      10 / (1 + 1 / (1 + freeCI.LOT_rate) ^ t * 1 * (1 / 10) * half t r ^ ((3 : ℝ) + 1) / (3 + 1) * 2) := by
  have n := Determined.net_eq (md := md0 .nodamage w o) (p := ciVar k) rfl rfl rfl h ht hr
  have hD : Determined.D (ciVar k) σ t r = 0 := by
    unfold Determined.D
    split
    · rfl
    · exact h.eqs.damages t ht r hr
  have hg : σ.R .GDP_gross t r = 10 := by
    cases t with
    | zero => exact h.eqs.economy.gross_init r hr
    | succ t =>
      rw [(h.eqs.economy.gross t ht r hr).2]
      have := ciVar_gdp hk (t + 1) r (σ.R .capital_stock (t + 1) r)
      rw [gdpOf, if_neg (Nat.succ_ne_zero t)] at this
      exact this
  have hl : σ.G .learning_factor t = 1 / (1 + freeCI.LOT_rate) ^ t := by
    have e1 : σ.G .LBD_factor t = 1 := by
      rw [(h.eqs.mitigation.lbd t ht).2]
      have : (ciVar k).log_LBD_rate = 0 := by
        show Real.log 1 / Real.log 2 = 0
        simp
      rw [this, Real.rpow_zero]
    rw [C31_learning_is_product h ht, C31_over_time h ht, e1, one_mul]
    rfl
  have hac : acVal (ciVar k) σ t r * Determined.ci (ciVar k) t r =
      1 / (1 + freeCI.LOT_rate) ^ t * 1 * (1 / 10) * half t r ^ ((3 : ℝ) + 1) / (3 + 1) * 2 := by
    have e2 : Determined.ci (ciVar k) t r = 2 := by
      show (20 : ℝ) / 10 = 2
      norm_num
    unfold acVal
    rw [e2, hl, ha]
    rfl
  have hpos : 0 < 1 + 1 / (1 + freeCI.LOT_rate) ^ t * 1 * (1 / 10) * half t r ^ ((3 : ℝ) + 1) / (3 + 1) * 2 := by
    have h1 : (0 : ℝ) ≤ half t r := by unfold half; split <;> norm_num
    have h2 := freeCI_admissible.lot
    have h3 := Real.rpow_nonneg h1 ((3 : ℝ) + 1)
    positivity
  rw [hD, hg, hac] at n
  have e : σ.R .GDP_net t r =
      10 / (1 + 1 / (1 + freeCI.LOT_rate) ^ t * 1 * (1 / 10) * half t r ^ ((3 : ℝ) + 1) / (3 + 1) * 2) := by
    rw [eq_div_iff hpos.ne', n]; norm_num
  exact ⟨by rw [e]; positivity, e⟩

/-- The climate is the same whatever happens to region B's population and capital. -/
theorem ciVar_climate {w w' : WelfareModule} {o o' : ObjectiveModule} {σ τ : Env} (hk : 0 < k)
    (h : Solution (md0 .nodamage w o) (ciVar 1) σ) (h' : Solution (md0 .nodamage w' o') (ciVar k) τ)
    (ha : ∀ t r, σ.R .relative_abatement t r = half t r) (ha' : ∀ t r, τ.R .relative_abatement t r = half t r) :
    Spec.SameWorld (ciVar 1) (ciVar k) σ τ := by
  have e := h.eqs.emissions
  have e' := h'.eqs.emissions
  have hg : ∀ t ≤ 3, τ.G .global_emissions t = σ.G .global_emissions t := by
    intro t ht
    rw [C23_global_is_sum h ht, C23_global_is_sum h' ht]
    refine sumR_congr (p := ciVar 1) fun r hr => ?_
    rcases Nat.eq_zero_or_pos t with rfl | h0
    · exact ((C32_emissions h').1 r hr).trans ((C32_emissions h).1 r hr).symm
    · rw [C23_abated_baseline h ht h0 hr, C23_abated_baseline h' ht h0 hr, (C23_baseline h ht hr).2 rfl,
        (C23_baseline h' ht hr).2 rfl, ha, ha', (ciVar_net one_pos h ha ht hr).2, (ciVar_net hk h' ha' ht hr).2]
      rfl
  refine ⟨fun t => ?_, .inl rfl⟩
  induction t with
  | zero => intro _; rw [e'.cumulative_init, e.cumulative_init]
  | succ t ih =>
    intro ht
    rw [e'.cumulative t ht, e.cumulative t ht, ih (by omega), hg t (Nat.le_of_succ_le ht), hg (t + 1) ht]
    rfl

/-- Three times the population and capital in region B, another welfare module and objective: the same emissions, GDP and
consumption in region A. -/
example (w w' : WelfareModule) (o o' : ObjectiveModule) :
    ∃ σ τ, Solution (md0 .nodamage w o) (ciVar 1) σ ∧ Solution (md0 .nodamage w' o') (ciVar 3) τ ∧
      σ.R .relative_abatement 2 "A" = 1 / 2 ∧ ∀ t : ℕ, t ≤ 3 →
        τ.R .consumption t "A" = σ.R .consumption t "A" ∧
        τ.R .regional_emissions t "A" = σ.R .regional_emissions t "A" := by
  obtain ⟨σ, h, ha⟩ := ciVar_sol one_pos w o
  obtain ⟨τ, h', ha'⟩ := ciVar_sol (k := 3) (by norm_num) w' o'
  have hA : "A" ∈ (ciVar 1).regions := by simp [ciVar, freeCI, free, ex]
  have hA' : "A" ∈ (ciVar 3).regions := by simp [ciVar, freeCI, free, ex]
  have hd := (ciVar_admissible (k := 1) one_pos).econData
  have hw := ciVar_climate (by norm_num) h h' ha ha'
  have hab : ∀ t ≤ (ciVar 1).tf, τ.R .relative_abatement t "A" = σ.R .relative_abatement t "A" :=
    fun t _ => (ha' t _).trans (ha t _).symm
  have hK : ∀ t < (ciVar 1).tf, 0 < σ.R .capital_stock t "A" := fun t ht =>
    C37_positive h hd hA (fun t ht => (ciVar_net one_pos h ha ht hA).1.le) (Nat.le_of_lt ht)
  refine ⟨σ, τ, h, h', by rw [ha]; norm_num [half], fun t ht => ⟨?_, ?_⟩⟩
  · exact (C74_economy_carbon_intensity h h' ciVar_same hw hA hA' rfl hab rfl rfl rfl rfl rfl hd ciVar_region le_rfl
      zero_le_one hK ht).2.2.2.2
  · exact (C74_costs_carbon_intensity h h' ciVar_same hw hA hA' rfl hab rfl rfl rfl rfl rfl hd ciVar_region le_rfl
      zero_le_one hK ht).2.1
end Ex
end Mimosa
