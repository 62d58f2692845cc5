import Verif.Lib.Scope2
import Mathlib.Analysis.SpecialFunctions.Pow.Asymptotics
import Mathlib.Topology.Order.IntermediateValue
import Mathlib.Analysis.SpecialFunctions.Pow.Continuity
import Mathlib.Analysis.Real.Pi.Bounds

/-!
# Building solutions forward in time

Given a path of abatement, trade balances, transfers and an effort-sharing level, all other variables can be
computed forward in time (the capital stock by solving one implicit equation per step).  `Drivers.env` is the
resulting assignment; `build_solution` shows that it is a solution as soon as the inequality constraints hold.
It is used for the existence theorems and for the examples that show hypotheses are satisfiable.
-/

set_option linter.unusedSimpArgs false

namespace Mimosa
open AbstractModel

/-- Ordinary data: what the shipped data and the bounds of the configuration guarantee. -/
structure Params.Admissible (p : Params) : Prop where
  regions_ne : p.regions ≠ []
  dt_pos : 0 < p.dt
  pop_pos : ∀ t ≤ p.tf, ∀ r ∈ p.regions, 0 < p.population t r
  gdp_pos : ∀ t ≤ p.tf, ∀ r ∈ p.regions, 0 < p.baseline_GDP t r
  sum_emissions_pos : 0 < (p.regions.map fun s => p.baseline_emissions 0 s).sum
  cum_ne : ∀ t < p.tf, p.cumulative_global_baseline_emissions (t + 1) ≠ 0
  lbd_pos : 0 < p.LBD_rate
  lbd_scaling : 0 < p.LBD_scaling
  lot : 0 < 1 + p.LOT_rate
  beta_pos : 0 < p.MAC_beta
  alpha_nonneg : 0 ≤ p.alpha
  alpha_lt : p.alpha < 1
  dk_nonneg : 0 ≤ p.dk
  dk_lt : p.dk < 1
  sr_nonneg : 0 ≤ p.sr
  capital_pos : ∀ r ∈ p.regions, 0 < p.init_capitalstock_factor r
  elasmu : p.elasmu ≠ 1
  inequal : p.inequal_aversion ≠ 1

theorem sumR_pos {p : Params} {f : String → ℝ} (hne : p.regions ≠ []) (h : ∀ r ∈ p.regions, 0 < f r) :
    0 < p.sumR f := by
  unfold Params.sumR
  generalize p.regions = L at *
  induction L with
  | nil => exact absurd rfl hne
  | cons a L ih =>
    by_cases hL : L = []
    · subst hL; simpa using h a (by simp)
    · have := ih hL fun r hr => h r (by simp [hr])
      have ha := h a (by simp)
      simp only [List.map_cons, List.sum_cons]
      linarith

theorem sumR_congr {p : Params} {f g : String → ℝ} (h : ∀ r ∈ p.regions, f r = g r) :
    p.sumR f = p.sumR g := by
  unfold Params.sumR; rw [List.map_congr_left h]

section
variable {p : Params} (h : p.Admissible)
include h

theorem dk_pow_le : (1 - p.dk) ^ p.dt ≤ 1 :=
  Real.rpow_le_one (by linarith [h.dk_lt]) (by linarith [h.dk_nonneg]) h.dt_pos.le
theorem dk_pow_pos : 0 < (1 - p.dk) ^ p.dt := Real.rpow_pos_of_pos (by linarith [h.dk_lt]) _
theorem dk_powOk : Expr.PowOk (1 - p.dk) p.dt := .of_pos (by linarith [h.dk_lt])

theorem calibCapital_pos {r : String} (hr : r ∈ p.regions) :
    ∀ t ≤ p.tf, 0 < calibCapital p r t := by
  intro t
  induction t with
  | zero =>
    intro _
    exact mul_pos (h.capital_pos r hr) (h.gdp_pos 0 (Nat.zero_le _) r hr)
  | succ t ih =>
    intro ht
    have hc := ih (by omega)
    have hg := h.gdp_pos t (by omega) r hr
    have hdt := h.dt_pos
    have hs := h.sr_nonneg
    have e : calibCapital p r (t + 1) =
        (1 - p.dk) ^ p.dt * calibCapital p r t + p.dt * p.sr * p.baseline_GDP t r := by
      simp only [calibCapital, calc_dKdt_real]
      field_simp; ring
    have := mul_pos (dk_pow_pos h) hc
    have : 0 ≤ p.dt * p.sr * p.baseline_GDP t r := by positivity
    rw [e]; linarith

theorem calcGDP_pos {t : ℕ} (ht : t ≤ p.tf) {r : String} (hr : r ∈ p.regions) :
    0 < calc_GDP 1 (p.population t r) (calibCapital p r t) p.alpha := by
  have h1 := Real.rpow_pos_of_pos (h.pop_pos t ht r hr) (1 - p.alpha)
  have h2 := Real.rpow_pos_of_pos (calibCapital_pos h hr t ht) p.alpha
  rw [calc_GDP_real]; positivity

theorem tfp_pos {t : ℕ} (ht : t ≤ p.tf) {r : String} (hr : r ∈ p.regions) :
    0 < get_TFP_value p t r := div_pos (h.gdp_pos t ht r hr) (calcGDP_pos h ht hr)

theorem Params.Admissible.initOk : p.InitOk where
  gdp_ne t ht r hr := (h.gdp_pos t ht r hr).ne'
  lbd_pos := h.lbd_pos
  sum_emissions_ne _ := h.sum_emissions_pos.ne'
  sum_population_ne t ht _ := (sumR_pos h.regions_ne (h.pop_pos t ht)).ne'
  dt_ne := h.dt_pos.ne'
  dk_pow := dk_powOk h
  pop_pow t ht r hr := .of_pos (h.pop_pos t ht r hr)
  cap_pow t ht r hr := .of_pos (calibCapital_pos h hr t ht)
  tfp_ne t ht r hr := (calcGDP_pos h ht hr).ne'
end

/-! ## The implicit capital equation has a solution -/

theorem capital_exists {A B C al : ℝ} (hA : 0 < A) (h0 : 0 ≤ al) (h1 : al < 1) :
    ∃ K : ℝ, A * K = B + C * soft_min K 10 ^ al := by
  set f : ℝ → ℝ := fun K => A * K - C * soft_min K 10 ^ al with hf
  have hcont : Continuous f := by
    apply Continuous.sub (by fun_prop)
    exact continuous_const.mul
      ((continuous_soft_min (s := 10)).rpow_const fun x => Or.inl (soft_min_pos_ten x).ne')
  have hpi : (10 : ℝ) / (25 * Real.pi) ≤ 1 := by
    rw [div_le_one (by positivity)]; nlinarith [Real.pi_gt_three]
  -- a point below
  obtain ⟨lo, hlo⟩ : ∃ K, f K ≤ B := by
    set K := -((|B| + |C|) / A) with hK
    have hKle : K ≤ 0 := by
      have : 0 ≤ (|B| + |C|) / A := by positivity
      linarith
    have hs : soft_min K 10 ≤ 1 := by
      have := soft_min_le K (s := 10) (by norm_num)
      rw [max_eq_right hKle] at this; linarith
    have hp := Real.rpow_le_one (soft_min_pos_ten K).le hs h0
    have hp0 := Real.rpow_nonneg (soft_min_pos_ten K).le al
    refine ⟨K, ?_⟩
    have e : A * K = -(|B| + |C|) := by rw [hK]; field_simp
    have h3 : -(C * soft_min K 10 ^ al) ≤ |C| := by
      calc -(C * soft_min K 10 ^ al) ≤ |C * soft_min K 10 ^ al| := neg_le_abs _
        _ = |C| * soft_min K 10 ^ al := by rw [abs_mul, abs_of_nonneg hp0]
        _ ≤ |C| * 1 := by gcongr
        _ = |C| := mul_one _
    simp only [hf]; rw [e]
    linarith [neg_abs_le B]
  obtain ⟨hi, hhi⟩ : ∃ K, B ≤ f K := by
    have ht : Filter.Tendsto (fun x : ℝ => x ^ (-(1 - al))) Filter.atTop (nhds 0) :=
      tendsto_rpow_neg_atTop (by linarith)
    have hev := ht.eventually (gt_mem_nhds (show (0 : ℝ) < A / (2 * (|C| + 1)) by positivity))
    obtain ⟨x, hx, hx1⟩ := (hev.and (Filter.eventually_ge_atTop (max 1 (2 * (|B| + A) / A)))).exists
    have hx1' : 1 ≤ x := le_trans (le_max_left _ _) hx1
    have hx2 : 2 * (|B| + A) / A ≤ x := le_trans (le_max_right _ _) hx1
    have hx0 : 0 < x := by linarith
    refine ⟨x - 1, ?_⟩
    have hs : soft_min (x - 1) 10 ≤ x := by
      have := soft_min_le (x - 1) (s := 10) (by norm_num)
      rw [max_eq_left (by linarith)] at this; linarith
    have hp : soft_min (x - 1) 10 ^ al ≤ x ^ al :=
      Real.rpow_le_rpow (soft_min_pos_ten _).le hs h0
    have hp0 := Real.rpow_nonneg (soft_min_pos_ten (x - 1)).le al
    have e : x ^ al = x ^ (-(1 - al)) * x := by
      have : x ^ (-(1 - al)) * x ^ (1 : ℝ) = x ^ (-(1 - al) + 1) := (Real.rpow_add hx0 _ _).symm
      rw [Real.rpow_one] at this; rw [this]; congr 1; ring
    have h4 : |C| * x ^ al ≤ A / 2 * x := by
      rw [e]
      have h5 : |C| * x ^ (-(1 - al)) ≤ A / 2 := by
        have h6 : (|C| + 1) * x ^ (-(1 - al)) ≤ A / 2 := by
          have := hx.le
          rw [le_div_iff₀ (by positivity)] at this
          linarith
        have := Real.rpow_nonneg hx0.le (-(1 - al))
        nlinarith
      nlinarith
    have h5 : C * soft_min (x - 1) 10 ^ al ≤ |C| * x ^ al := by
      calc C * soft_min (x - 1) 10 ^ al ≤ |C| * soft_min (x - 1) 10 ^ al := by
            gcongr; exact le_abs_self C
        _ ≤ |C| * x ^ al := by gcongr
    have h6 : 2 * (|B| + A) ≤ A * x := by
      rw [div_le_iff₀ hA] at hx2; linarith
    simp only [hf]
    linarith [le_abs_self B]
  have hpre : IsPreconnected (Set.univ : Set ℝ) := isPreconnected_univ
  obtain ⟨K, -, hK⟩ := hpre.intermediate_value (Set.mem_univ lo) (Set.mem_univ hi)
    hcont.continuousOn ⟨hlo, hhi⟩
  exact ⟨K, by simp only [hf] at hK; linarith⟩

/-! ## The forward construction -/

/-- The quantities that can be chosen freely. -/
structure Drivers where
  /-- relative abatement -/
  a : ℕ → String → ℝ
  /-- mitigation cost balance (used with trade) -/
  bal : ℕ → String → ℝ
  /-- financial transfer (used with the damage pool) -/
  tr : ℕ → String → ℝ
  /-- effort-sharing level -/
  lvl : ℕ → ℝ
  /-- baseline emissions and capital stocks, where baseline emissions are not those of the data -/
  base : Option ((ℕ → String → ℝ) × (ℕ → String → ℝ))

namespace Drivers
variable (x : Drivers) (md : Modules) (p : Params)

/-- baseline emissions -/
noncomputable def bl (t : ℕ) (r : String) : ℝ :=
  match x.base with | none => p.baseline_emissions t r | some b => b.1 t r
/-- the emissions that are abated -/
noncomputable def eb (t : ℕ) (r : String) : ℝ :=
  match x.base with
  | none => p.baseline_emissions t r
  | some b => if t = 0 then p.baseline_emissions 0 r else b.1 t r
noncomputable def em (t : ℕ) (r : String) : ℝ := (1 - x.a t r) * x.eb p t r
noncomputable def gE (t : ℕ) : ℝ := p.sumR (x.em p t)
noncomputable def cum : ℕ → ℝ
  | 0 => 0
  | t + 1 => cum t + (if p.cumulative_emissions_trapz then
      p.dt * (x.gE p (t + 1) + x.gE p t) / 2 else p.dt * x.gE p (t + 1))
noncomputable def temp (t : ℕ) : ℝ := p.T0 + p.TCRE * x.cum p t
noncomputable def th : ℕ → ℝ
  | 0 => SeaLevelRise.slr_thermal_expansion_init p.T0
  | t + 1 => SeaLevelRise.slr_thermal_expansion (th t) (x.temp p t) p.dt
noncomputable def gs : ℕ → ℝ
  | 0 => 0.015
  | t + 1 => SeaLevelRise.slr_gsic (gs t) (x.temp p t) p.dt
noncomputable def gi : ℕ → ℝ
  | 0 => 0.006
  | t + 1 => SeaLevelRise.slr_gis (gi t) (x.temp p t) p.dt
noncomputable def slr (t : ℕ) : ℝ := x.th p t + x.gs p t + x.gi p t
noncomputable def damN (t : ℕ) (r : String) : ℝ := p.damage_scale_factor *
  (formVal (x.temp p t - 0.6) p.noslr r - formVal (p.T0 - 0.6) p.noslr r)
noncomputable def damS (t : ℕ) (r : String) : ℝ := p.damage_scale_factor *
  (formVal (x.slr p t) p.slr r - formVal (x.slr p 0) p.slr r)
noncomputable def dam (t : ℕ) (r : String) : ℝ :=
  match md.damage with | .COACCH => x.damN p t r + x.damS p t r | .nodamage => 0
noncomputable def lbd (t : ℕ) : ℝ := soft_min
  ((p.cumulative_global_baseline_emissions t - x.cum p t) / p.LBD_scaling + 1) 1 ^ p.log_LBD_rate
noncomputable def lot (t : ℕ) : ℝ := 1 / (1 + p.LOT_rate) ^ (t : ℝ)
noncomputable def learn (t : ℕ) : ℝ := x.lbd p t * lot p t
noncomputable def price (t : ℕ) (r : String) : ℝ :=
  x.learn p t * p.MAC_scaling_factor r * p.MAC_gamma * x.a t r ^ p.MAC_beta
noncomputable def area (t : ℕ) (r : String) : ℝ :=
  x.learn p t * p.MAC_scaling_factor r * p.MAC_gamma * x.a t r ^ (p.MAC_beta + 1) / (p.MAC_beta + 1)
    * x.bl p t r
noncomputable def balance (t : ℕ) (r : String) : ℝ :=
  match md.trade with | .notrade => 0 | _ => x.bal t r
noncomputable def cost (t : ℕ) (r : String) : ℝ := x.area p t r + x.balance md t r
noncomputable def transfer (t : ℕ) (r : String) : ℝ :=
  match md.transfer with | .notransfer => 0 | .globaldamagepool => x.tr t r

/-- gross GDP as a function of the capital stock -/
noncomputable def grossOf (p : Params) (t : ℕ) (r : String) (K : ℝ) : ℝ :=
  get_TFP_value p t r * p.population t r ^ (1 - p.alpha) * soft_min K 10 ^ p.alpha
noncomputable def netOf (t : ℕ) (r : String) (gross : ℝ) : ℝ :=
  gross * (1 - (if p.ignore_damages then 0 else x.dam md p t r)) - x.cost md p t r - x.transfer md t r

/-- `K'` solves the implicit capital equation after `K`. -/
def CapStep (t : ℕ) (r : String) (K K' : ℝ) : Prop :=
  K' = K + p.dt * (((1 - p.dk) ^ p.dt - 1) / p.dt * K' + p.sr * x.netOf md p t r (grossOf p t r K'))

open Classical in
noncomputable def Kc : ℕ → String → ℝ
  | 0, r => p.init_capitalstock_factor r * p.baseline_GDP 0 r
  | t + 1, r => if h : ∃ K', x.CapStep md p (t + 1) r (Kc t r) K' then h.choose else 0

theorem Kc_step (h : p.Admissible) (t : ℕ) (r : String) :
    x.CapStep md p (t + 1) r (x.Kc md p t r) (x.Kc md p (t + 1) r) := by
  have hex : ∃ K', x.CapStep md p (t + 1) r (x.Kc md p t r) K' := by
    have hA : 0 < 2 - (1 - p.dk) ^ p.dt := by linarith [dk_pow_le h]
    set D := (if p.ignore_damages then 0 else x.dam md p (t + 1) r) with hD
    obtain ⟨K', hK⟩ := capital_exists (A := 2 - (1 - p.dk) ^ p.dt)
      (B := x.Kc md p t r - p.dt * p.sr * (x.cost md p (t + 1) r + x.transfer md (t + 1) r))
      (C := p.dt * p.sr * (get_TFP_value p (t + 1) r * p.population (t + 1) r ^ (1 - p.alpha)) * (1 - D))
      hA h.alpha_nonneg h.alpha_lt
    refine ⟨K', ?_⟩
    unfold CapStep netOf grossOf
    rw [← hD]
    have hdt := h.dt_pos.ne'
    field_simp
    linarith
  have : x.Kc md p (t + 1) r = hex.choose := by
    conv_lhs => unfold Kc
    exact dif_pos hex
  rw [this]; exact hex.choose_spec

/-- capital stocks -/
noncomputable def K (t : ℕ) (r : String) : ℝ := match x.base with | none => x.Kc md p t r | some b => b.2 t r

theorem K_step (h : p.Admissible) (hb : x.base = none) (t : ℕ) (r : String) :
    x.CapStep md p (t + 1) r (x.K md p t r) (x.K md p (t + 1) r) := by
  unfold K; rw [hb]; exact x.Kc_step md p h t r

noncomputable def gross (t : ℕ) (r : String) : ℝ :=
  if t = 0 then p.baseline_GDP 0 r else grossOf p t r (x.K md p t r)
noncomputable def net (t : ℕ) (r : String) : ℝ := x.netOf md p t r (x.gross md p t r)
noncomputable def cons (t : ℕ) (r : String) : ℝ := (1 - p.sr) * x.net md p t r
noncomputable def util (t : ℕ) (r : String) : ℝ :=
  match md.welfare with
  | .welfare_loss_minimising =>
    (soft_min (x.cons md p t r / p.population t r) 1 ^ (1 - p.elasmu) - 1) / (1 - p.elasmu)
  | .cost_minimising => x.cons md p t r / p.population t r
  | .inequal_aversion_general =>
    p.population t r * soft_min (x.cons md p t r / p.population t r) 1 ^ (1 - p.inequal_aversion)
noncomputable def welf (t : ℕ) : ℝ :=
  match md.welfare with
  | .welfare_loss_minimising => p.sumR fun r => p.population t r * x.util md p t r
  | .cost_minimising => p.sumR (fun r => p.population t r) *
        ((soft_min (p.sumR (fun r => x.cons md p t r) / p.sumR (fun r => p.population t r)) 1 ^
          (1 - p.elasmu) - 1) / (1 - p.elasmu))
  | .inequal_aversion_general => p.sumR (fun r => p.population t r) *
        (soft_min (p.sumR (fun r => x.util md p t r) / p.sumR (fun r => p.population t r)) 1 ^
          ((1 - p.elasmu) / (1 - p.inequal_aversion)) / (1 - p.elasmu))
noncomputable def npv : ℕ → ℝ
  | 0 => 0
  | t + 1 => npv t + p.dt * Objective.discount p (t + 1) *
      (match md.objective with
      | .utility => x.welf md p (t + 1)
      | .globalcosts => p.sumR (fun r => x.cost md p (t + 1) r) +
          p.sumR (fun r => x.dam md p (t + 1) r * x.gross md p (t + 1) r))
noncomputable def gprice (t : ℕ) : ℝ :=
  p.sumR (fun r => x.price p t r * p.population t r) / p.sumR (fun r => p.population t r)
noncomputable def red (t : ℕ) (r : String) : ℝ := x.bl p t r - x.em p t r
noncomputable def redBal (t : ℕ) (r : String) : ℝ := x.bal t r / soft_min (x.gprice p t) 1
noncomputable def mort (c : MortalityCoeffs) (t : ℕ) (r : String) : ℝ :=
  c.a r + c.b r * x.temp p t + c.c r * x.temp p t ^ 2

/-- The assignment computed forward from the drivers. -/
noncomputable def env : Env where
  g v s := match v with
    | .cumulative_emissions => x.cum p s.toNat
    | .global_emissions => x.gE p s.toNat
    | .emission_relative_cumulative =>
      if s.toNat = 0 then 1 else x.cum p s.toNat / p.cumulative_global_baseline_emissions s.toNat
    | .temperature => x.temp p s.toNat
    | .slr_thermal => x.th p s.toNat
    | .slr_cumgsic => x.gs p s.toNat
    | .slr_cumgis => x.gi p s.toNat
    | .total_SLR => x.slr p s.toNat
    | .global_rel_mitigation_costs =>
      p.sumR (fun r => x.cost md p s.toNat r) / p.sumR (fun r => x.gross md p s.toNat r)
    | .global_emission_reduction_per_cost_unit =>
      p.sumR (fun r => x.red p s.toNat r) / soft_min (p.sumR fun r => x.cost md p s.toNat r) 1
    | .global_cost_per_emission_reduction_unit =>
      p.sumR (fun r => x.cost md p s.toNat r) / soft_min (p.sumR fun r => x.red p s.toNat r) 1
    | .LBD_factor => x.lbd p s.toNat
    | .LOT_factor => lot p s.toNat
    | .learning_factor => x.learn p s.toNat
    | .global_carbonprice => x.gprice p s.toNat
    | .effort_sharing_common_level => x.lvl s.toNat
    | .yearly_welfare => x.welf md p s.toNat
    | .NPV => x.npv md p s.toNat
    | .overshoot => 0
  r v s r := match v with
    | .regional_emissions => x.em p s.toNat r
    | .baseline => x.bl p s.toNat r
    | .relative_abatement => x.a s.toNat r
    | .regional_emission_reduction => x.red p s.toNat r
    | .damage_costs => x.dam md p s.toNat r
    | .damage_costs_non_slr => x.damN p s.toNat r
    | .damage_costs_slr => x.damS p s.toNat r
    | .mortality_oldest => x.mort p p.mortality_oldest s.toNat r
    | .mortality_older => x.mort p p.mortality_older s.toNat r
    | .mortality_young => x.mort p p.mortality_young s.toNat r
    | .mortality_cost_oldest => x.mort p p.mortality_oldest s.toNat r * p.population s.toNat r * 10000 *
        Damages.statistical_value_life_oldest
    | .carbonprice => x.price p s.toNat r
    | .mitigation_costs => x.cost md p s.toNat r
    | .area_under_MAC => x.area p s.toNat r
    | .rel_mitigation_costs => x.cost md p s.toNat r / x.gross md p s.toNat r
    | .paid_for_emission_reductions => x.red p s.toNat r + x.redBal p s.toNat r
    | .regional_emission_allowances =>
      x.bl p s.toNat r - (x.red p s.toNat r + x.redBal p s.toNat r)
    | .import_export_emission_reduction_balance => x.redBal p s.toNat r
    | .import_export_mitigation_cost_balance => x.bal s.toNat r
    | .financial_transfer => x.tr s.toNat r
    | .rel_financial_transfer => x.tr s.toNat r / x.gross md p s.toNat r
    | .capital_stock => x.K md p s.toNat r
    | .GDP_gross => x.gross md p s.toNat r
    | .GDP_net => x.net md p s.toNat r
    | .investments => p.sr * x.net md p s.toNat r
    | .consumption => x.cons md p s.toNat r
    | .utility => x.util md p s.toNat r

theorem gross_pos (h : p.Admissible) {t : ℕ} (ht : t ≤ p.tf) {r : String} (hr : r ∈ p.regions) :
    0 < x.gross md p t r := by
  unfold gross
  split
  · exact h.gdp_pos 0 (Nat.zero_le _) r hr
  · have h1 := tfp_pos h ht hr
    have h2 := Real.rpow_pos_of_pos (h.pop_pos t ht r hr) (1 - p.alpha)
    have h3 := Real.rpow_pos_of_pos (soft_min_pos_ten (x.K md p t r)) p.alpha
    unfold grossOf; positivity

/-- The inequality constraints (and the consistency conditions on the drivers) that remain to be met. -/
structure Ok : Prop where
  a_init : ∀ r ∈ p.regions, x.a 0 r = 0
  a_nonneg : ∀ t ≤ p.tf, ∀ r ∈ p.regions, 0 ≤ x.a t r
  a_le : ∀ t ≤ p.tf, ∀ r ∈ p.regions, x.a t r ≤ 5 / 2
  exogenous : p.use_carbon_intensity_for_baseline = false → x.base = none
  endogenous : p.use_carbon_intensity_for_baseline = true → ∃ b, x.base = some b ∧
    (∀ t ≤ p.tf, ∀ r ∈ p.regions, b.1 t r = p.baseline_carbon_intensity t r * x.net md p t r) ∧
    (∀ r ∈ p.regions, b.2 0 r = p.init_capitalstock_factor r * p.baseline_GDP 0 r) ∧
    ∀ t < p.tf, ∀ r ∈ p.regions, x.CapStep md p (t + 1) r (b.2 t r) (b.2 (t + 1) r)
  trade : md.trade ≠ .globalcostpool
  bal_sum : md.trade = .emissiontrade → ∀ t ≤ p.tf, p.sumR (x.bal t) = 0
  tr_init : md.transfer = .globaldamagepool → ∀ r ∈ p.regions, x.tr 0 r = 0
  tr_sum : md.transfer = .globaldamagepool → ∀ t ≤ p.tf, p.sumR (x.tr t) = 0
  tr_max : md.transfer = .globaldamagepool → ∀ t ≤ p.tf, ∀ r ∈ p.regions,
    -(x.dam md p t r) * x.gross md p t r ≤ x.tr t r
  target : ∀ t ≤ p.tf, ∀ T, p.temperature_target = some T → p.year t ≥ 2100 → x.temp p t ≤ T
  reversible : p.budget ≠ none → 1 ≤ p.perc_reversible_damages
  budget : ∀ t ≤ p.tf, ∀ b, p.budget = some b → p.year t ≥ 2100 → x.cum p t ≤ b
  cum_nonneg : ∀ t ≤ p.tf, 0 ≤ x.cum p t
  global_inertia : ∀ t < p.tf, ∀ i, p.inertia_global = some i →
    p.dt * i * (p.sumR fun r => p.baseline_emissions 0 r) ≤ x.gE p (t + 1) - x.gE p t
  regional_inertia : ∀ t < p.tf, ∀ r ∈ p.regions, ∀ i, p.inertia_regional = some i →
    p.dt * i * p.baseline_emissions 0 r ≤ x.em p (t + 1) r - x.em p t r
  global_min : ∀ t ≤ p.tf, ∀ l, p.global_min_level = some l → l ≤ x.gE p t
  regional_min : ∀ t ≤ p.tf, ∀ r ∈ p.regions, ∀ l, p.regional_min_level = some l → l ≤ x.em p t r
  start : p.beginyear ≤ 2100
  non_increasing : ∀ t < p.tf, ∀ r ∈ p.regions, p.year t > 2100 →
    p.non_increasing_emissions_after_2100 = true → x.em p (t + 1) r ≤ x.em p t r
  net_zero : ∀ t ≤ p.tf, p.year t ≥ 2100 → p.no_pos_emissions_after_budget_year = true →
    p.budget ≠ none → x.gE p t ≤ 0
  slr_nonneg : ∀ t ≤ p.tf, 0 ≤ x.th p t ∧ 0 ≤ x.gs p t ∧ 0 ≤ x.gi p t
  forms : md.damage = .COACCH → ∀ t ≤ p.tf, ∀ r ∈ p.regions,
    FormOk (x.temp p t - 0.6) p.noslr r ∧ FormOk (p.T0 - 0.6) p.noslr r ∧
    FormOk (x.slr p t) p.slr r ∧ FormOk (x.slr p 0) p.slr r
  damS_bounds : md.damage = .COACCH → ∀ t ≤ p.tf, ∀ r ∈ p.regions,
    -1 / 2 ≤ x.damS p t r ∧ x.damS p t r ≤ 7 / 10
  price_nonneg : ∀ t ≤ p.tf, ∀ r ∈ p.regions, 0 ≤ x.price p t r
  price_le : ∀ t ≤ p.tf, ∀ r ∈ p.regions, x.price p t r ≤ 2 * p.MAC_gamma
  rel_costs_min : ∀ t ≤ p.tf, ∀ r ∈ p.regions,
    (if t > 0 then p.rel_mitigation_costs_min_level else 0) ≤ x.cost md p t r / x.gross md p t r
  effort : EffortEqs p (x.env md p) md.transfer
  effort_scope : p.effort_sharing_regime = "per_cap_convergence" → md.trade = .emissiontrade

/-- The variable bounds of the model. -/
theorem bounds_of {md : Modules} {p : Params} {σ : Env} (htr : md.trade ≠ .globalcostpool)
    (ha : ∀ t ≤ p.tf, ∀ r ∈ p.regions, 0 ≤ σ.R .relative_abatement t r ∧
      σ.R .relative_abatement t r ≤ 5 / 2)
    (hp : ∀ t ≤ p.tf, ∀ r ∈ p.regions, 0 ≤ σ.R .carbonprice t r ∧
      σ.R .carbonprice t r ≤ 2 * p.MAC_gamma)
    (hs : ∀ t ≤ p.tf, 0 ≤ σ.G .slr_thermal t ∧ 0 ≤ σ.G .slr_cumgsic t ∧ 0 ≤ σ.G .slr_cumgis t ∧
      0 ≤ σ.G .total_SLR t)
    (hd : md.damage = .COACCH → ∀ t ≤ p.tf, ∀ r ∈ p.regions, -1 / 2 ≤ σ.R .damage_costs_slr t r ∧
      σ.R .damage_costs_slr t r ≤ 7 / 10) :
    ∀ d ∈ allVars md, d.BoundsOk p σ := by
  obtain ⟨d, tr, f, w, o⟩ := md
  simp only [allVars, components, List.flatMap_cons, List.flatMap_nil, List.append_nil,
    List.forall_mem_append]
  refine ⟨?_, ?_, ?_, ?_, ?_, ?_, ?_, ?_, ?_, ?_⟩
  · simp +contextual [Emissions.component, VarDecl.BoundsOk, noBound, ha]
  · simp +contextual [SeaLevelRise.component, VarDecl.BoundsOk, noBound, hs]
  · cases d
    · simp +contextual [damageComponent, Damages.coacch, VarDecl.BoundsOk, noBound, hd]
    · simp +contextual [damageComponent, Damages.nodamage, VarDecl.BoundsOk, noBound]
  · simp +contextual [Mitigation.component, VarDecl.BoundsOk, noBound, hp]
  · cases tr
    · simp [EmissionTrade.component, EmissionTrade.notrade]
    · exact absurd rfl htr
    · simp [EmissionTrade.component, EmissionTrade.emissiontrade, VarDecl.BoundsOk, noBound]
  · cases f <;> simp [FinTransfer.component, FinTransfer.notransfer, FinTransfer.globaldamagepool,
      VarDecl.BoundsOk, noBound]
  · simp [EffortSharing.component, VarDecl.BoundsOk, noBound]
  · simp [CobbDouglas.component, VarDecl.BoundsOk, noBound]
  · cases w <;> simp [Welfare.component, VarDecl.BoundsOk, noBound]
  · cases o <;> simp [Objective.component, VarDecl.BoundsOk, noBound]

theorem formOk_known {y : ℝ} {d : DamageCoeffs} {r : String} (h : FormOk y d r) : KnownForm d r := by
  rcases h with h | h | h
  · exact Or.inl h
  · exact Or.inr (Or.inl h)
  · exact Or.inr (Or.inr h.1)

variable {x md p}

theorem eqs (h : p.Admissible) (ok : x.Ok md p) : AllEqs p (x.env md p) md := by
  have hg := fun {t} (ht : t ≤ p.tf) {r} (hr : r ∈ p.regions) => (x.gross_pos md p h ht hr).ne'
  have hsg := fun {t} (ht : t ≤ p.tf) =>
    (sumR_pos h.regions_ne fun r hr => x.gross_pos md p h ht hr).ne'
  have hsp := fun {t} (ht : t ≤ p.tf) => (sumR_pos h.regions_ne (h.pop_pos t ht)).ne'
  have hem0 : ∀ r ∈ p.regions, x.em p 0 r = p.baseline_emissions 0 r := by
    intro r hr
    have h0 := ok.a_init r hr
    unfold em eb
    cases x.base <;> simp [h0]
  have hel : 1 - p.elasmu ≠ 0 := sub_ne_zero.2 (Ne.symm h.elasmu)
  have hiq : 1 - p.inequal_aversion ≠ 0 := sub_ne_zero.2 (Ne.symm h.inequal)
  have hb1 : p.MAC_beta + 1 ≠ 0 := by linarith [h.beta_pos]
  constructor
  case emissions =>
    constructor
    case baseline =>
      intro t ht r hr
      show x.bl p t r = if _ then _ * x.net md p t r else _
      cases hu : p.use_carbon_intensity_for_baseline with
      | false => simp [bl, ok.exogenous hu]
      | true =>
        obtain ⟨b, hb, hb', -⟩ := ok.endogenous hu
        simp [bl, hb, hb' t ht r hr]
    case regional_emissions =>
      intro t ht r hr
      show (1 - x.a (t + 1) r) * x.eb p (t + 1) r = (1 - x.a (t + 1) r) * if _ then x.bl p (t + 1) r else _
      cases hu : p.use_carbon_intensity_for_baseline with
      | false => simp [eb, ok.exogenous hu]
      | true =>
        obtain ⟨b, hb, -⟩ := ok.endogenous hu
        simp [bl, eb, hb]
    case regional_emissions_init => exact hem0
    case reduction => intro t ht r hr; rfl
    case global_emissions => intro t ht; rfl
    case global_emissions_init =>
      show x.gE p 0 = _
      exact sumR_congr hem0
    case cumulative => intro t ht; rfl
    case cumulative_init => rfl
    case rel_cumulative => intro t ht; exact ⟨h.cum_ne t ht, rfl⟩
    case rel_cumulative_init => rfl
    case temperature => intro t ht; rfl
    case temperature_init =>
      show x.temp p 0 = _
      simp [temp, cum]
    case temperature_target => exact ok.target
    case budget =>
      intro t ht b hb hy
      have : ¬ p.perc_reversible_damages < 1 := not_lt.2 (ok.reversible (by simp [hb]))
      have h2 := ok.budget t ht b hb hy
      simp only [this, if_false, add_zero]
      exact sub_nonpos.2 h2
    case cumulative_nonneg => exact ok.cum_nonneg
    case global_inertia => exact ok.global_inertia
    case regional_inertia => exact ok.regional_inertia
    case global_min_level => exact ok.global_min
    case regional_min_level => exact ok.regional_min
    case non_increasing =>
      intro t ht r hr hy hn
      rcases Nat.eq_zero_or_pos t with rfl | h0
      · exfalso
        have := ok.start
        have := h.dt_pos
        simp [Params.year] at hy; linarith
      · obtain ⟨s, rfl⟩ := Nat.exists_eq_succ_of_ne_zero (Nat.pos_iff_ne_zero.1 h0)
        have e : ((s.succ : ℕ) : ℤ) - 1 = (s : ℤ) := by simp
        rw [e] at hy ⊢
        exact sub_nonpos.2 (ok.non_increasing s ht r hr hy hn)
    case net_zero => exact ok.net_zero
  case slr => constructor <;> intros <;> rfl
  case damages =>
    cases hd : md.damage with
    | COACCH =>
      constructor
      case total =>
        intro t ht r hr
        show x.dam md p t r = x.damN p t r + x.damS p t r
        simp [dam, hd]
      case noslr =>
        intro t ht r hr
        have := ok.forms hd t ht r hr
        exact ⟨this.1, this.2.1, rfl⟩
      case slr =>
        intro t ht r hr
        have := ok.forms hd t ht r hr
        exact ⟨this.2.2.1, this.2.2.2, rfl⟩
      all_goals intros; rfl
    | nodamage =>
      intro t ht r hr
      show x.dam md p t r = 0
      simp [dam, hd]
  case mitigation =>
    constructor
    case carbonprice =>
      intro t ht r hr
      exact ⟨.of_nonneg (ok.a_nonneg t ht r hr) h.beta_pos.le, rfl⟩
    case carbonprice_init =>
      intro r hr
      show x.price p 0 r = 0
      simp [price, ok.a_init r hr, Real.zero_rpow h.beta_pos.ne']
    case mitigation_costs =>
      intro t ht r hr
      refine ⟨⟨.of_nonneg (ok.a_nonneg t ht r hr) (by linarith [h.beta_pos]), hb1⟩, ?_⟩
      show x.area p t r + x.balance md t r = x.area p t r + costBalanceVal (x.env md p) md.trade t r
      unfold balance costBalanceVal
      cases md.trade <;> rfl
    case area =>
      intro t ht r hr
      exact ⟨⟨.of_nonneg (ok.a_nonneg t ht r hr) (by linarith [h.beta_pos]), hb1⟩, rfl⟩
    case rel_costs => intro t ht r hr; exact ⟨hg ht hr, rfl⟩
    case rel_costs_min => exact ok.rel_costs_min
    case global_rel => intro t ht; exact ⟨hsg ht, rfl⟩
    case reduction_per_cost => intros; rfl
    case cost_per_reduction => intros; rfl
    case lbd => intro t ht; exact ⟨h.lbd_scaling.ne', rfl⟩
    case lot =>
      intro t ht
      exact ⟨.of_pos h.lot, (Real.rpow_pos_of_pos h.lot _).ne', rfl⟩
    case learning => intros; rfl
  case trade =>
    cases hm : md.trade with
    | notrade => trivial
    | globalcostpool => exact absurd hm ok.trade
    | emissiontrade =>
      constructor
      case price => intro t ht; exact ⟨hsp ht, rfl⟩
      case zero_sum => exact ok.bal_sum hm
      all_goals intros; rfl
  case transfer =>
    cases hm : md.transfer with
    | notransfer => trivial
    | globaldamagepool =>
      constructor
      case zero_sum => intro t ht; exact ok.tr_sum hm (t + 1) ht
      case first_year => exact ok.tr_init hm
      case max_own => exact ok.tr_max hm
      case rel =>
        intro t ht r hr
        exact div_mul_cancel₀ _ (hg ht hr)
  case effort => exact ok.effort
  case economy =>
    constructor
    case gross =>
      intro t ht r hr
      refine ⟨.of_pos (h.pop_pos _ ht r hr), ?_⟩
      show x.gross md p (t + 1) r = _
      rw [gross, if_neg (Nat.succ_ne_zero t)]; rfl
    case gross_init => intros; rfl
    case net =>
      intro t ht r hr
      show x.net md p t r = x.gross md p t r *
        (1 - (if p.ignore_damages then 0 else x.dam md p t r)) - x.cost md p t r -
          transferVal (x.env md p) md.transfer t r
      unfold net netOf transfer transferVal
      cases md.transfer <;> rfl
    case investments => intros; rfl
    case consumption => intros; rfl
    case capital =>
      intro t ht r hr
      refine ⟨dk_powOk h, h.dt_pos.ne', ?_⟩
      have : x.CapStep md p (t + 1) r (x.K md p t r) (x.K md p (t + 1) r) := by
        cases hu : p.use_carbon_intensity_for_baseline with
        | false => exact x.K_step md p h (ok.exogenous hu) t r
        | true =>
          obtain ⟨b, hb, -, -, hs⟩ := ok.endogenous hu
          unfold K; rw [hb]; exact hs t ht r hr
      unfold CapStep at this
      have e : x.net md p (t + 1) r = x.netOf md p (t + 1) r (grossOf p (t + 1) r (x.K md p (t + 1) r)) := by
        simp [net, gross]
      show x.K md p (t + 1) r = x.K md p t r + p.dt * (_ * x.K md p (t + 1) r + p.sr * x.net md p (t + 1) r)
      rw [e]; exact this
    case capital_init =>
      intro r hr
      show x.K md p 0 r = _
      cases hu : p.use_carbon_intensity_for_baseline with
      | false => unfold K; rw [ok.exogenous hu]; rfl
      | true =>
        obtain ⟨b, hb, -, hi, -⟩ := ok.endogenous hu
        unfold K; rw [hb]; exact hi r hr
  case welfare =>
    have hp := fun {t} (ht : t ≤ p.tf) {r} (hr : r ∈ p.regions) => (h.pop_pos t ht r hr).ne'
    cases hw : md.welfare with
    | welfare_loss_minimising =>
      refine ⟨fun t ht r hr => ⟨hp ht hr, hel, ?_⟩, fun t ht => ?_⟩
      · show x.util md p t r = _
        unfold util; rw [hw]; rfl
      · show x.welf md p t = _
        unfold welf; rw [hw]; rfl
    | cost_minimising =>
      refine ⟨fun t ht r hr => ⟨hp ht hr, ?_⟩, fun t ht => ⟨hsp ht, hel, ?_⟩⟩
      · show x.util md p t r = _
        unfold util; rw [hw]; rfl
      · show x.welf md p t = _
        unfold welf; rw [hw]; rfl
    | inequal_aversion_general =>
      refine ⟨fun t ht r hr => ⟨hp ht hr, ?_⟩, fun t ht => ⟨hsp ht, hiq, hel, ?_⟩⟩
      · show x.util md p t r = _
        unfold util; rw [hw]; rfl
      · show x.welf md p t = _
        unfold welf; rw [hw]; rfl
  case objective =>
    cases ho : md.objective with
    | utility =>
      refine ⟨fun t ht => ?_, rfl⟩
      show x.npv md p (t + 1) = x.npv md p t + _ * x.welf md p (t + 1)
      simp [npv, ho]
    | globalcosts =>
      refine ⟨fun t ht => ?_, rfl⟩
      show x.npv md p (t + 1) = x.npv md p t + _ * (p.sumR (fun r => x.cost md p (t + 1) r) +
        p.sumR (fun r => x.dam md p (t + 1) r * x.gross md p (t + 1) r))
      simp [npv, ho]

/-- The forward construction is a solution of the model. -/
theorem build_solution (h : p.Admissible) (ok : x.Ok md p) : Solution md p (x.env md p) := by
  rw [solution_iff]
  have hcount : StrictMono (fun n : ℕ => n) := fun _ _ h => h
  obtain ⟨m, hm⟩ := (buildModel_isOk hcount md).2 ok.trade
  refine ⟨fun n => n, hcount, m, hm, ?_, ?_, (allEqs_iff p _ md).2 (eqs h ok)⟩
  · rw [createInstance_isOk_iff p hm, scope_all h.regions_ne ok.trade]
    refine ⟨h.initOk, ?_, ?_, ?_, ?_⟩
    · intro hb hp; exact absurd (ok.reversible hb) (not_le.2 hp)
    · intro _
      have := ok.start
      have := h.dt_pos
      simp [Params.year]; linarith
    · intro hd r hr
      have := ok.forms hd 0 (Nat.zero_le _) r hr
      exact ⟨formOk_known this.1, formOk_known this.2.2.1⟩
    · intro hp; exact Or.inl (ok.effort_scope hp)
  · apply bounds_of ok.trade
    · exact fun t ht r hr => ⟨ok.a_nonneg t ht r hr, ok.a_le t ht r hr⟩
    · exact fun t ht r hr => ⟨ok.price_nonneg t ht r hr, ok.price_le t ht r hr⟩
    · intro t ht
      obtain ⟨h1, h2, h3⟩ := ok.slr_nonneg t ht
      refine ⟨h1, h2, h3, ?_⟩
      show 0 ≤ x.slr p t
      unfold slr; linarith
    · exact ok.damS_bounds

end Drivers

end Mimosa
